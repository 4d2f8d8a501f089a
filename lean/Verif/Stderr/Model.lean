import Verif.Xml.ErrorStream
import Verif.Measurement.Messages
import Verif.Pipe.Model
import Verif.Itk.Visitor

/-!
# The whole error stream of a run

`Verif/Xml/ErrorStream.lean` keeps what `Main` itself writes to `std::cerr`, `Verif/Measurement/Messages.lean` what measurements write when their data is read.  Here both are put together for a
whole run, with what the test writes in between, so that the pieces are in the order in which they are written.  A piece is a line, except where the program forgets to end it
(itktfCompareVisitor.cxx:86).
-/

namespace Verif.Stderr
open Verif.Measurement Verif.Regression Verif.Xml Verif.Path

/-- What a comparison says and leaves. -/
abbrev Spoken := List Str × CompareResult

/-- `CompareVisitor::Visit(Measurement&)`, tfMeasurementVisitor.cpp:157-160. -/
def compareGeneralS (files : Measurement.Files) (baseline test : Meas) : Spoken := baseline.isEqualM files test

/-- `CompareVisitor::Visit(NumericData&)`, tfMeasurementVisitor.cpp:162-175; `IsEqualTolerant` (tfMeasurement.h:443-450) writes nothing. -/
def compareNumericS (v : CompareVisitor) (env : NumEnv) (files : Measurement.Files) (baseline test : Meas) : Spoken :=
  match baseline, test with
  | .data ⟨.num bk, bn, bc, be, bz, bs, bd⟩, .data ⟨.num tk, tn, tc, te, tz, ts, td⟩ =>
    let b : DataM := ⟨.num bk, bn, bc, be, bz, bs, bd⟩
    let t : DataM := ⟨.num tk, tn, tc, te, tz, ts, td⟩
    if v.getTolerance ≠ 0 then ([], .data b, .data t, isEqualTolerant env bk bc tk tc v.getTolerance)
    else (Meas.data b).isEqualM files (.data t)
  | b, t => ([], b, t, .ok false)

/-- The overloads of `CompareVisitor`, tfMeasurementVisitor.h:184-187. -/
def ownS (v : CompareVisitor) (env : NumEnv) (files : Measurement.Files) : Cls → Option (Meas → Meas → Spoken)
  | .measurement => some (compareGeneralS files)
  | .numericData => some (compareNumericS v env files)
  | _ => none

/-- `test.AcceptVisitor(vis)` for a `CompareVisitor`, tfMeasurementVisitor.cpp:44-84. -/
def visitS (v : CompareVisitor) (env : NumEnv) (files : Measurement.Files) (baseline test : Meas) : Spoken :=
  match dispatch (ownS v env files) test.cls with
  | some h => h baseline test
  | none => ([], baseline, test, .ok false)

/-- What the visitors of `itk::Regression` write to `std::cerr` about a pair of images: when comparing (itktfCompareVisitor.cxx:74-101; names of test and baseline), and when writing about the difference
(itktfDifferenceVisitor.cxx:119-151). -/
structure ImageVoice where
  compare : World → Str → Str → List Str
  diff : World → ImgTol → FileM → FileM → List Str

/-- The visitor at work, tfRegressionTest.cpp:413-415, itktfCompareVisitor.cxx:34-64. -/
def compareVisitS (env : Env) (voice : ImageVoice) (s : St) (tolerant : Bool) (baseline test : Meas) : List Str × St × CompareResult :=
  match imagePair env baseline test with
  | some (im, f, g) =>
    (voice.compare s.world (cstr g.fileName) (cstr f.fileName),
      s.toCout (b!"Comparing test image: \"" ++ cstr g.fileName ++ b!"\" to baseline image: \"" ++ cstr f.fileName ++ b!"\"\n"),
      baseline, test, .ok (im.compare s.world s.obj.imageTol (cstr g.fileName) (cstr f.fileName)))
  | none => match visitS (visitorFor s tolerant) env.num s.world.openRead baseline test with
    | (ms, r) => (ms, s, r)

/-- `DifferenceMeasurement`, tfRegressionTest.cpp:357-365: what is written to `std::cerr`; tfMeasurementVisitor.cpp:88-124 write nothing there. -/
def differenceSays (env : Env) (voice : ImageVoice) (s : St) (test baseline : Meas) : List Str :=
  match imagePair env baseline test with
  | some (_, f, g) => voice.diff s.world s.obj.imageTol g f
  | none => []

/-- `CompareMeasurement`, tfRegressionTest.cpp:372-434; `UnmatchedMeasurement` (tfRegressionTest.cpp:347-351) writes nothing to `std::cerr`. -/
def compareMeasurementS (env : Env) (voice : ImageVoice) (s : St) (test : Meas) (tolerant : Bool) : List Str × Res Int :=
  match s.obj.input with
  | [] => ([], (unmatchedMeasurement s test).andThen fun s _ => (s, .ok 1))
  | baseline :: rest =>
    let s := { s with obj := { s.obj with input := rest } }
    if baseline.name = test.name ∧ baseline.type = test.type then
      match locateBaseline s baseline test with
      | .error f => ([], s, .error f)
      | .ok baseline =>
        match compareVisitS env voice s tolerant baseline test with
        | (ms, s, _, _, .error f) => (ms, s, .error f)
        | (ms, s, baseline, test, .ok same) =>
          if same then (ms, s, .ok 1)
          else (ms ++ differenceSays env voice s test baseline, (differenceMeasurement env s test baseline).andThen fun s _ => (s, .ok 0))
    else ([], (unmatchedMeasurement s test).andThen fun s _ => (s, .ok 1))

/-- A measurement call, tfRegressionTest.cpp:441-584; recording writes nothing to `std::cerr`. -/
def runCallS (env : Env) (voice : ImageVoice) (s : St) (c : Call) : List Str × Res Int :=
  if s.compareMode then compareMeasurementS env voice s c.meas c.tolerant
  else match c.recorded with
    | .error f => ([], s, .error f)
    | .ok m => match m.print with
      | .error f => ([], s, .error f)
      | .ok t => ([], s.emit (t ++ b!"\n"), .ok 0)

/-- A test that also writes to `std::cerr`: the steps of `Regression.Prog` (tfRegressionTest.h:76-132, 164-196), and `say`. -/
inductive Talk where
  | say (t : Str) (k : Talk)
  | ret (v : Int)
  | fails (f : Fault)
  | call (c : Call) (k : Int → Talk)
  | act (f : World → World) (k : Talk)
  | look (k : World → Talk)
  | ask (k : Settings → Talk)
  | setTolerance (t : ℚ) (k : Talk)
  | setExpected (v : Int) (k : Talk)
  | setImageTolerance (t : ImgTol) (k : Talk)
  | setSearchPath (ps : List Str) (k : Talk)
  | prependSearchPath (p : Str) (k : Talk)
  | setInFileName (n : Str) (k : Talk)
  | setOutFileName (n : Str) (k : Talk)

/-- The test without what it says (the same test of `Regression.Prog`, tfRegressionTest.h:150). -/
def Talk.silent : Talk → Prog
  | .say _ k => k.silent
  | .ret v => .ret v
  | .fails f => .fails f
  | .call c k => .call c fun r => (k r).silent
  | .act f k => .act f k.silent
  | .look k => .look fun w => (k w).silent
  | .ask k => .ask fun s => (k s).silent
  | .setTolerance t k => .setTolerance t k.silent
  | .setExpected v k => .setExpected v k.silent
  | .setImageTolerance t k => .setImageTolerance t k.silent
  | .setSearchPath ps k => .setSearchPath ps k.silent
  | .prependSearchPath p k => .prependSearchPath p k.silent
  | .setInFileName n k => .setInFileName n k.silent
  | .setOutFileName n k => .setOutFileName n k.silent

/-- Running a test, tfRegressionTest.cpp:308; as `Regression.runProg`, with everything written to `std::cerr`. -/
def runTalk (env : Env) (voice : ImageVoice) : Talk → St → List Str × Res Int
  | .say t k, s => match runTalk env voice k s with
    | (ms, r) => (t :: ms, r)
  | .ret v, s => ([], s, .ok v)
  | .fails f, s => ([], s, .error f)
  | .call c k, s =>
    match runCallS env voice s c with
    | (ms, s, .error f) => (ms, s, .error f)
    | (ms, s, .ok r) => match runTalk env voice (k r) s with
      | (ms', r) => (ms ++ ms', r)
  | .act f k, s => runTalk env voice k { s with world := f s.world }
  | .look k, s => runTalk env voice (k s.world) s
  | .ask k, s => runTalk env voice (k s.settings) s
  | .setTolerance t k, s => runTalk env voice k { s with obj := { s.obj with tolerance := t } }
  | .setExpected v k, s => runTalk env voice k { s with obj := { s.obj with expected := v } }
  | .setImageTolerance t k, s => runTalk env voice k { s with obj := { s.obj with imageTol := t } }
  | .setSearchPath ps k, s => runTalk env voice k { s with obj := { s.obj with searchPath := ps } }
  | .prependSearchPath p k, s => runTalk env voice k { s with obj := { s.obj with searchPath := p :: s.obj.searchPath } }
  | .setInFileName n k, s => runTalk env voice k { s with obj := { s.obj with inFileName := n } }
  | .setOutFileName n k, s => runTalk env voice k { s with obj := { s.obj with outFileName := n } }

/-- The `try` block of `Main`, tfRegressionTest.cpp:301-317. -/
def tryBlockS (X : Expat) (line why : X.State → Str) (env : Env) (voice : ImageVoice) (thrown : Fault → Thrown) (test : List Str → Talk) (fuel : Nat) (argv : List Str) (s : St) :
    List Str × St × Int × Option Failure :=
  let s := { s with obj := { s.obj with unmatched := s.obj.unmatched + 1 } }
  match parseArgumentsE s.world.fs fuel s.obj argv with
  | (ms, o, .error f) => (ms, { s with obj := o }, -1, some f)
  | (ms, o, .ok rest) =>
    match beginMeasurementE X line why { s with obj := o } with
    | (ms', s, .error f) => (ms ++ ms', s, -1, some f)
    | (ms', s, .ok ()) =>
      match runTalk (withXML X env) voice (test rest) s with
      | (ms'', s, .error f) => (ms ++ ms' ++ ms'', s, -1, some (f, thrown f))
      | (ms'', s, .ok ret) =>
        let s := endMeasurement s
        (ms ++ ms' ++ ms'', { s with obj := { s.obj with unmatched := s.obj.unmatched - 1 } }, ret, none)

/-- `Main`, tfRegressionTest.cpp:292-345: everything written to `std::cerr`, and what `main` says. -/
def mainS (X : Expat) (line why : X.State → Str) (env : Env) (voice : ImageVoice) (thrown : Fault → Thrown) (test : List Str → Talk) (fuel : Nat) (argv : List Str) (s : St) : List Str × Res Int :=
  match tryBlockS X line why env voice thrown test fuel argv s with
  | (ms, s, ret, none) => (ms, s, .ok (mainValue s ret))
  | (ms, s, ret, some (.thrown _, e)) => (ms ++ [caught e], s, .ok (mainValue s ret))
  | (ms, s, _, some (f, _)) => (ms, s, .error f)

end Verif.Stderr
