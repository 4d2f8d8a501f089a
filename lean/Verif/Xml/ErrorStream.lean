import Verif.Xml.Messages
import Verif.Regression.ArgsMessages

/-!
# What `Main` writes to the error stream, tfRegressionTest.cpp:53, 292-345

`mainE` is `main` with the lines that `Main` writes to `std::cerr` itself: about the command line, the baseline and exceptions.  What the test writes to the error stream in between, and what
comparisons write about the data of measurements (C102), is not kept.
-/

namespace Verif.Xml
open Verif.Measurement Verif.Regression Verif.Path

/-- An exception object: the names of its class and of the base classes, the class itself first (single inheritance), and the text; `what()` is a pointer to it, so that printing stops at a zero byte. -/
structure Thrown where
  classes : List Str
  what : Str
  deriving DecidableEq

/-- The classes of the `catch` clauses, in their order, tfRegressionTest.cpp:317-328. -/
def handlers : List Str :=
  [b!"std::length_error", b!"std::domain_error", b!"std::out_of_range", b!"std::invalid_argument", b!"std::bad_alloc", b!"std::bad_cast", b!"std::range_error",
   b!"std::overflow_error", b!"std::underflow_error", b!"std::runtime_error", b!"std::logic_error", b!"std::exception"]

/-- The first `catch` clause for the class or one of the base classes of the exception writes the line; `catch(...)` otherwise; tfRegressionTest.cpp:53, 317-331. -/
def caught (e : Thrown) : Str :=
  match handlers.find? (fun h => decide (h ∈ e.classes)) with
  | some h => h ++ b!": \"" ++ cstr e.what ++ b!"\"\n"
  | none => b!"unknow exception\n"

/-- `std::runtime_error(text)`. -/
def runtimeError (text : Str) : Thrown := ⟨[b!"std::runtime_error", b!"std::exception"], text⟩

/-- How the `try` block fails: the fault of the model without texts, and the exception object if it is an exception. -/
abbrev Failure := Fault × Thrown

/-- The loop of `ParseAndRemoveArguments` again, tfRegressionTest.cpp:205-285, for the text of the exception thrown in lines 235 and 269. -/
def refusal (fs : FileSys) : Nat → Args → Option Str
  | 0, _ => none
  | fuel + 1, a =>
    if 1 < a.argc then
      match a.argv[1]?, a.argv[2]? with
      | some opt, some v =>
        if 1 < a.argc - 1 then
          if opt = optI && (!isFile fs v || !isReadable fs v) then some (b!"unable to read input file \"" ++ v ++ b!"\"!")
          else if opt = optP && (!isDirectory fs v || !isReadable fs v) then some (b!"unable to read input path \"" ++ v ++ b!"\"!")
          else if opt = optO || opt = optI || opt = optR || opt = optP then
            match a.remove 1 with
            | .error _ => none
            | .ok a => refusal fs fuel a
          else none
        else none
      | _, _ => none
    else none

/-- `ParseAndRemoveArguments` with the lines and the exceptions, tfRegressionTest.cpp:199-290. -/
def parseArgumentsE (fs : FileSys) (fuel : Nat) (o : Obj) (argv : List Str) : List Str × Obj × Except Failure (List Str) :=
  match parseArgumentsM fs fuel o argv with
  | (ms, o, .ok rest) => (ms, o, .ok rest)
  | (ms, o, .error f) => (ms, o, .error (f, runtimeError ((refusal fs fuel { argc := argv.length, argv := argv }).getD [])))

/-- A part of `BeginMeasurement` that throws a `std::runtime_error` with this text if it throws. -/
def throwing {α : Type} (text : Str) : Res α → St × Except Failure α
  | (s, .ok a) => (s, .ok a)
  | (s, .error f) => (s, .error (f, runtimeError text))

/-- The texts of the exceptions of `BeginMeasurement`, tfRegressionTest.cpp:151, 166: the name as it was given, whatever was looked up. -/
def cannotOpen (which name : Str) : Str := b!"unable to open " ++ which ++ b!" file \"" ++ name ++ b!"\"!"

/-- The end of `BeginMeasurement`, tfRegressionTest.cpp:170-174, with what `ReadXMLInput` writes and throws (tfRegressionTest.cpp:772-775). -/
def startOrReadE (X : Expat) (line why : X.State → Str) (s : St) : List Str × St × Except Failure Unit :=
  if s.compareMode then
    match s.obj.is with
    | none => ([], s, .ok ())
    | some b => match readXMLM X line why b with
      | (ms, .error f) => (ms, s, .error (f, runtimeError b!"parse error"))
      | (ms, .ok xs) => (ms, { s with obj := { s.obj with input := xs } }, .ok ())
  else ([], s.emit (header s.world), .ok ())

/-- `BeginMeasurement`, tfRegressionTest.cpp:139-175. -/
def beginMeasurementE (X : Expat) (line why : X.State → Str) (s : St) : List Str × St × Except Failure Unit :=
  match throwing (cannotOpen b!"output" s.obj.outFileName) (openOutput s) with
  | (s, .error f) => ([], s, .error f)
  | (s, .ok ()) =>
    match throwing (cannotOpen b!"input" s.obj.inFileName) (openInput s) with
    | (s, .error f) => ([], s, .error f)
    | (s, .ok ()) => startOrReadE X line why s

/-- The `try` block of `Main`, tfRegressionTest.cpp:301-317; `thrown` says what exceptions of the test are. -/
def tryBlockE (X : Expat) (line why : X.State → Str) (env : Env) (thrown : Fault → Thrown) (test : List Str → Prog) (fuel : Nat) (argv : List Str) (s : St) :
    List Str × St × Int × Option Failure :=
  let s := { s with obj := { s.obj with unmatched := s.obj.unmatched + 1 } }
  match parseArgumentsE s.world.fs fuel s.obj argv with
  | (ms, o, .error f) => (ms, { s with obj := o }, -1, some f)
  | (ms, o, .ok rest) =>
    match beginMeasurementE X line why { s with obj := o } with
    | (ms', s, .error f) => (ms ++ ms', s, -1, some f)
    | (ms', s, .ok ()) =>
      match runProg (withXML X env) (test rest) s with
      | (s, .error f) => (ms ++ ms', s, -1, some (f, thrown f))
      | (s, .ok ret) =>
        let s := endMeasurement s
        (ms ++ ms', { s with obj := { s.obj with unmatched := s.obj.unmatched - 1 } }, ret, none)

/-- `Main`, tfRegressionTest.cpp:292-345: the lines written to `std::cerr`, and what `main` says. -/
def mainE (X : Expat) (line why : X.State → Str) (env : Env) (thrown : Fault → Thrown) (test : List Str → Prog) (fuel : Nat) (argv : List Str) (s : St) : List Str × Res Int :=
  match tryBlockE X line why env thrown test fuel argv s with
  | (ms, s, ret, none) => (ms, s, .ok (mainValue s ret))
  | (ms, s, ret, some (.thrown _, e)) => (ms ++ [caught e], s, .ok (mainValue s ret))
  | (ms, s, _, some (f, _)) => (ms, s, .error f)

end Verif.Xml
