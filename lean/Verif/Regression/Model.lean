import Verif.Path.Model
import Verif.Measurement.Difference

/-!
# Model of `TestingFramework/tfRegressionTest.{h,cpp}`

The object, its surroundings (`World`), the command line, the comparison and `Main`.  Reading
the baseline document is in `Verif/Regression/Xml.lean`.  Messages to `std::cerr` are added in `Verif/Xml/Messages.lean`, `Verif/Regression/ArgsMessages.lean`
and `Verif/Measurement/Messages.lean`.
-/

namespace Verif.Regression

open Verif.Path (FileSys)
open Verif.Measurement

/-- The tolerances for images of `itk::Regression`, itktfRegression.h:310-312, itktfRegression.cxx:33-46. -/
structure ImgTol where
  intensity : ℚ := 0
  pixels : Nat := 0
  radius : Nat := 0
  deriving DecidableEq

/-- The data members of `RegressionTest`, tfRegressionTest.h:265-282, tfRegressionTest.cpp:58-64. `os` is the name of the file
being written, `is` the bytes of the file being read; `none` is the null pointer. The `int` counter is unbounded.
`imageTol` belongs to the subclass `itk::Regression`. -/
structure Obj where
  os : Option Str := none
  is : Option Str := none
  tolerance : ℚ := 64 / 8388608
  unmatched : Int := 0
  expected : Int := 0
  searchPath : List Str := []
  inFileName : Str := []
  outFileName : Str := []
  input : List Meas := []
  imageTol : ImgTol := {}

/-- What surrounds the object: the files (identified by name), standard output, host name and the text of `ctime`. -/
structure World where
  fs : FileSys
  bytes : Str → Str
  creatable : Str → Bool
  cout : Str
  host : Str
  time : Str

/-- The state of a run. -/
structure St where
  obj : Obj
  world : World

/-- Opening a file for reading: a readable regular file delivers its bytes. (Opening a directory is taken to fail at
once; `std::ifstream` would fail at the first read.) -/
def World.openRead (w : World) (name : Str) : Option Str :=
  if w.fs.stat (cstr name) = some .regular ∧ w.fs.canRead (cstr name) = true then some (w.bytes (cstr name)) else none

/-- Opening a file for writing: it exists afterwards, empty. -/
def World.openWrite (w : World) (name : Str) : Option World :=
  let n := cstr name
  if w.creatable n then
    some { w with
      bytes := fun m => if m = n then [] else w.bytes m
      fs := { w.fs with
        stat := fun m => if m = n then some .regular else w.fs.stat m
        canRead := fun m => if m = n ∧ w.fs.stat n = none then true else w.fs.canRead m } }
  else none

/-- Writing to the stream `GetOutStream()`, tfRegressionTest.cpp:117-119; every write is flushed by `std::endl`. -/
def St.emit (s : St) (t : Str) : St :=
  match s.obj.os with
  | none => { s with world := { s.world with cout := s.world.cout ++ t } }
  | some n =>
    { s with world := { s.world with
        bytes := fun m => if m = cstr n then s.world.bytes m ++ t else s.world.bytes m } }

/-- A step that may end abnormally; the state reached is kept. -/
abbrev Res (α : Type) := St × Except Fault α

/-- Sequencing of steps. -/
def Res.andThen {α β : Type} (r : Res α) (f : St → α → Res β) : Res β :=
  match r with
  | (s, .error e) => (s, .error e)
  | (s, .ok a) => f s a

/-! ## Command line -/

/-- `"-O"` etc. -/
def optO : Str := b!"-O"
def optI : Str := b!"-I"
def optR : Str := b!"-R"
def optP : Str := b!"-P"

/-- `std::swap(argv[a], argv[b])`; out of range indices are undefined behaviour. -/
def swapArgs (argv : List Str) (a b : Nat) : Except Fault (List Str) :=
  match argv[a]?, argv[b]? with
  | some x, some y => .ok ((argv.set a y).set b x)
  | _, _ => .error (.ub "argv out of range")

/-- `for (int j = i; j+2 < argc; ++j) std::swap(argv[j+2], argv[j]);`, e.g. tfRegressionTest.cpp:219-220; `n` is the number of
iterations left. -/
def shiftLoop : Nat → List Str → Nat → Except Fault (List Str)
  | 0, argv, _ => .ok argv
  | n + 1, argv, j =>
    match swapArgs argv (j + 2) j with
    | .error f => .error f
    | .ok argv => shiftLoop n argv (j + 1)

/-- The number of iterations of the shift loop from `i`. -/
def shiftCount (argc i : Nat) : Nat := argc - 2 - i

/-- The local variables of `ParseAndRemoveArguments`. -/
structure Args where
  argc : Nat
  argv : List Str
  infname : Option Str := none
  outfname : Option Str := none

/-- `(int)strtol(s, 0, 10)`: the `long` nearest to the number read (0 if there is none), modulo 2^32. -/
def strtolInt (s : Str) : Int :=
  match readInt s with
  | none => 0
  | some v => longToInt (max (-9223372036854775808) (min 9223372036854775807 v))

/-- Removing the pair at `i`: the shift loop and `argc -= 2`. -/
def Args.remove (a : Args) (i : Nat) : Except Fault Args :=
  match shiftLoop (shiftCount a.argc i) a.argv i with
  | .error f => .error f
  | .ok argv => .ok { a with argc := a.argc - 2, argv := argv }

/-- The loop of `ParseAndRemoveArguments`, tfRegressionTest.cpp:205-285; `i` is always 1.  An option without value changes
nothing, so the loop comes back to it.  The object is returned also when the loop ends by an exception. -/
def parseLoop (fs : FileSys) : Nat → Obj → Args → Obj × Except Fault Args
  | 0, o, _ => (o, .error .fuel)
  | fuel + 1, o, a =>
    if 1 < a.argc then
      match a.argv[1]? with
      | none => (o, .error (.ub "argv out of range"))
      | some opt =>
        if opt = optO then
          if 1 < a.argc - 1 then
            match a.argv[2]? with
            | none => (o, .error (.ub "argv out of range"))
            | some v =>
              let out := if Path.isFile fs v && !Path.isWritable fs v then none else some v
              match a.remove 1 with
              | .error f => (o, .error f)
              | .ok a => parseLoop fs fuel o { a with outfname := out }
          else parseLoop fs fuel o a
        else if opt = optI then
          if 1 < a.argc - 1 then
            match a.argv[2]? with
            | none => (o, .error (.ub "argv out of range"))
            | some v =>
              if !Path.isFile fs v || !Path.isReadable fs v then (o, .error (.thrown "unable to read input file"))
              else match a.remove 1 with
                | .error f => (o, .error f)
                | .ok a => parseLoop fs fuel o { a with infname := some v }
          else parseLoop fs fuel o a
        else if opt = optR then
          if 1 < a.argc - 1 then
            match a.argv[2]? with
            | none => (o, .error (.ub "argv out of range"))
            | some v =>
              match a.remove 1 with
              | .error f => (o, .error f)
              | .ok a => parseLoop fs fuel { o with expected := strtolInt v } a
          else parseLoop fs fuel o a
        else if opt = optP then
          if 1 < a.argc - 1 then
            match a.argv[2]? with
            | none => (o, .error (.ub "argv out of range"))
            | some v =>
              if !Path.isDirectory fs v || !Path.isReadable fs v then (o, .error (.thrown "unable to read input path"))
              else match a.remove 1 with
                | .error f => (o, .error f)
                | .ok a => parseLoop fs fuel { o with searchPath := v :: o.searchPath } a
          else parseLoop fs fuel o a
        else (o, .ok a)
    else (o, .ok a)

/-- `ParseAndRemoveArguments`, tfRegressionTest.cpp:199-290: the object afterwards and the arguments that remain. -/
def parseArguments (fs : FileSys) (fuel : Nat) (o : Obj) (argv : List Str) : Obj × Except Fault (List Str) :=
  match parseLoop fs fuel o { argc := argv.length, argv := argv } with
  | (o, .error f) => (o, .error f)
  | (o, .ok a) =>
    let o := match a.infname with | some n => { o with inFileName := n } | none => o
    let o := match a.outfname with | some n => { o with outFileName := n } | none => o
    (o, .ok (a.argv.take a.argc))

/-! ## Modes, streams -/

/-- The path searched for the baseline, tfRegressionTest.cpp:130, 156. -/
def Obj.searched (o : Obj) (fs : FileSys) : Str := Path.searchPathList fs o.inFileName o.searchPath

/-- `GetCompareMode`, tfRegressionTest.cpp:125-135. -/
def St.compareMode (s : St) : Bool :=
  match s.obj.is with
  | some _ => true
  | none =>
    if s.obj.inFileName = [] then false
    else
      let p := s.obj.searched s.world.fs
      if p ≠ [] then Path.isFile s.world.fs p && Path.isReadable s.world.fs p
      else Path.isFile s.world.fs s.obj.inFileName && Path.isReadable s.world.fs s.obj.inFileName

/-- `WriteXMLOutputStart`, tfRegressionTest.cpp:589-601; `time` is the text of `ctime`, with its new line. -/
def header (w : World) : Str :=
  b!"<?xml version=\"1.0\" encoding=\"US-ASCII\"?>\n" ++ b!"<!-- created on " ++ cstr w.host ++ b!" at " ++ w.time ++ b!" -->\n" ++
    b!"<output>\n"

/-- `WriteXMLOutputEnd`, tfRegressionTest.cpp:604-606. -/
def footer : Str := b!"</output>\n"

/-- What the subclass `itk::Regression` adds (modelled in `Verif/Itk`): the comparison of two image files, test and baseline, and the text
of the difference written to standard output, with the exception that ended it. -/
structure ImageEnv where
  compare : World → ImgTol → Str → Str → Bool
  diff : World → ImgTol → FileM → FileM → Str × Option Fault

/-- What the libraries contribute: numbers, the XML reading of a whole baseline (`ReadXMLInput`, modelled in `Xml.lean`) and
the text of `Diff` (modelled in `Verif/Diff`), and whether the object is an `itk::Regression`. -/
structure Env where
  num : NumEnv
  readXML : Str → Except Fault (List Meas)
  diff : Str → Str → Except Fault Str
  image : Option ImageEnv := none

/-- The first half of `BeginMeasurement`, opening the output, tfRegressionTest.cpp:142-153. -/
def openOutput (s : St) : Res Unit :=
  if s.obj.outFileName ≠ [] then
    match s.world.openWrite s.obj.outFileName with
    | none => ({ s with obj := { s.obj with os := none } }, .error (.thrown "unable to open output file"))
    | some w => (⟨{ s.obj with os := some s.obj.outFileName }, w⟩, .ok ())
  else (s, .ok ())

/-- Opening the input, tfRegressionTest.cpp:155-168. -/
def openInput (s : St) : Res Unit :=
  if s.obj.inFileName ≠ [] then
    let p := s.obj.searched s.world.fs
    let p := if p = [] then s.obj.inFileName else p
    match s.world.openRead p with
    | none => ({ s with obj := { s.obj with is := none } }, .error (.thrown "unable to open input file"))
    | some b => ({ s with obj := { s.obj with is := some b } }, .ok ())
  else (s, .ok ())

/-- The end of `BeginMeasurement`, tfRegressionTest.cpp:170-174.  In compare mode without a stream (which is not reachable)
nothing is read. -/
def startOrRead (env : Env) (s : St) : Res Unit :=
  if s.compareMode then
    match s.obj.is with
    | none => (s, .ok ())
    | some b => match env.readXML b with
      | .error f => (s, .error f)
      | .ok ms => ({ s with obj := { s.obj with input := ms } }, .ok ())
  else (s.emit (header s.world), .ok ())

/-- `BeginMeasurement`, tfRegressionTest.cpp:139-175. -/
def beginMeasurement (env : Env) (s : St) : Res Unit :=
  (openOutput s).andThen fun s _ => (openInput s).andThen fun s _ => startOrRead env s

/-- `EndMeasurement`, tfRegressionTest.cpp:177-196. -/
def endMeasurement (s : St) : St :=
  let s := if s.compareMode then { s with obj := { s.obj with input := [] } } else s.emit footer
  { s with obj := { s.obj with os := none, is := none } }

/-! ## Comparing -/

/-- `UnmatchedMeasurement`, tfRegressionTest.cpp:347-351. -/
def unmatchedMeasurement (s : St) (test : Meas) : Res Unit :=
  let s := { s with obj := { s.obj with unmatched := s.obj.unmatched + 1 } }
  match (test.setName (b!"Unmatched " ++ test.name)).print with
  | .error f => (s, .error f)
  | .ok t => (s.emit (t ++ b!"\n"), .ok ())

/-- The pair of measurements is handled by the image comparison of `itk::Regression`, itktfCompareVisitor.cxx:37-38,
itktfDifferenceVisitor.cxx:58-59. -/
def imagePair (env : Env) (baseline test : Meas) : Option (ImageEnv × FileM × FileM) :=
  match env.image, baseline, test with
  | some im, .file f, .file g => if g.type = b!"image/itk" then some (im, f, g) else none
  | _, _, _ => none

/-- Writing to standard output directly. -/
def St.toCout (s : St) (t : Str) : St := { s with world := { s.world with cout := s.world.cout ++ t } }

/-- `DifferenceMeasurement`, tfRegressionTest.cpp:357-365, with the visitor of the class: itktfDifferenceVisitor.cxx:55-71 writes about
images to standard output. -/
def differenceMeasurement (env : Env) (s : St) (test baseline : Meas) : Res Unit :=
  let s := { s with obj := { s.obj with unmatched := s.obj.unmatched + 1 } }
  match imagePair env baseline test with
  | some (im, f, g) =>
    match im.diff s.world s.obj.imageTol g f with
    | (t, some e) => (s.toCout t, .error e)
    | (t, none) => (s.toCout t, .ok ())
  | none =>
    match difference env.diff baseline test with
    | .error f => (s, .error f)
    | .ok t => (s.emit t, .ok ())

/-- The file name of a baseline file is looked up in the search path, tfRegressionTest.cpp:387-401. -/
def locateBaseline (s : St) (baseline test : Meas) : Except Fault Meas :=
  match baseline, test with
  | .file inf, .file _ =>
    match Path.tail inf.fileName with
    | .error f => .error f
    | .ok t =>
      let pn := Path.searchPathList s.world.fs t s.obj.searchPath
      .ok (.file (if pn ≠ [] then { inf with fileName := pn } else inf))
  | b, _ => .ok b

/-- The compare visitor as set up in tfRegressionTest.cpp:405-411. -/
def visitorFor (s : St) (tolerant : Bool) : CompareVisitor :=
  if tolerant then ({} : CompareVisitor).setTolerance s.obj.tolerance else ({} : CompareVisitor).setToleranceOff

/-- The visitor at work: `AcceptVisitor` and `GetResult`, tfRegressionTest.cpp:413-415; image files are compared by
itktfCompareVisitor.cxx:34-64 if the object is an `itk::Regression`. -/
def compareVisit (env : Env) (s : St) (tolerant : Bool) (baseline test : Meas) : St × Meas × Meas × Except Fault Bool :=
  match imagePair env baseline test with
  | some (im, f, g) =>
    (s.toCout (b!"Comparing test image: \"" ++ cstr g.fileName ++ b!"\" to baseline image: \"" ++ cstr f.fileName ++ b!"\"\n"),
      baseline, test, .ok (im.compare s.world s.obj.imageTol (cstr g.fileName) (cstr f.fileName)))
  | none => (s, (visitorFor s tolerant).visit env.num s.world.openRead baseline test)

/-- `CompareMeasurement`, tfRegressionTest.cpp:372-434. -/
def compareMeasurement (env : Env) (s : St) (test : Meas) (tolerant : Bool) : Res Int :=
  match s.obj.input with
  | [] => (unmatchedMeasurement s test).andThen fun s _ => (s, .ok 1)
  | baseline :: rest =>
    let s := { s with obj := { s.obj with input := rest } }
    if baseline.name = test.name ∧ baseline.type = test.type then
      match locateBaseline s baseline test with
      | .error f => (s, .error f)
      | .ok baseline =>
        match compareVisit env s tolerant baseline test with
        | (s, _, _, .error f) => (s, .error f)
        | (s, baseline, test, .ok same) =>
          if same then (s, .ok 1)
          else (differenceMeasurement env s test baseline).andThen fun s _ => (s, .ok 0)
    else (unmatchedMeasurement s test).andThen fun s _ => (s, .ok 1)

/-! ## The calls a test makes -/

/-- The protected measurement functions, tfRegressionTest.h:164-196, and `MeasurementInsightFileImage`, itktfRegression.h:73.  The text of a floating point number is what
`operator<<` made of it in `SetValue` (tfMeasurement.cpp:563-568, 581-586). -/
inductive Call where
  | textString (content name : Str)
  | textPlain (content name : Str)
  | fileTextPlain (fileName name : Str)
  | integer (value : Int) (name : Str) (tolerant : Bool)
  | float (text : Str) (name : Str) (tolerant : Bool)
  | double (text : Str) (name : Str) (tolerant : Bool)
  | boolean (value : Bool) (name : Str) (tolerant : Bool)
  | filePNG (fileName name : Str)
  | fileJPEG (fileName name : Str)
  | fileITK (fileName name : Str)
  deriving Repr, DecidableEq

/-- The measurement object a call builds for comparison, tfRegressionTest.cpp:441-584,
itktfRegression.cxx:96-114. -/
def Call.meas : Call → Meas
  | .textString c n => .data { kind := .string, name := n, content := c }
  | .textPlain c n => .data { kind := .plain, name := n, content := c }
  | .fileTextPlain f n => .file { type := b!"text/plain", name := n, fileName := f }
  | .integer v n _ => .data (({ kind := .num .integer, name := n } : DataM).setInteger (longToInt v))
  | .float t n _ => .data { kind := .num .float, name := n, content := t }
  | .double t n _ => .data { kind := .num .double, name := n, content := t }
  | .boolean b n _ => .data (({ kind := .num .boolean, name := n } : DataM).setBoolean b)
  | .filePNG f n => .file { type := b!"image/png", name := n, fileName := f }
  | .fileJPEG f n => .file { type := b!"image/jpeg", name := n, fileName := f }
  | .fileITK f n => .file { type := b!"image/itk", name := n, fileName := f }

/-- Is the call compared with tolerance?  (`CompareMeasurement`'s default is not, tfRegressionTest.h:205.) -/
def Call.tolerant : Call → Bool
  | .integer _ _ t | .float _ _ t | .double _ _ t | .boolean _ _ t => t
  | _ => false

/-- The measurement object a call prints when recording: files by the tail of their name. -/
def Call.recorded (c : Call) : Except Fault Meas :=
  match c.meas with
  | .data d => .ok (.data d)
  | .file f => match Path.tail f.fileName with
    | .error e => .error e
    | .ok t => .ok (.file { f with fileName := t })

/-- A measurement call, tfRegressionTest.cpp:441-584. -/
def runCall (env : Env) (s : St) (c : Call) : Res Int :=
  if s.compareMode then compareMeasurement env s c.meas c.tolerant
  else match c.recorded with
    | .error f => (s, .error f)
    | .ok m => match m.print with
      | .error f => (s, .error f)
      | .ok t => (s.emit (t ++ b!"\n"), .ok 0)

/-- What the `Get` functions of the object tell a test, tfRegressionTest.h:83-132: `GetCompareMode`, `GetExpectedReturn`, `GetRelativeTolerance`,
`GetInFileName`, `GetOutFileName`, `GetInFileSearchPath`. -/
structure Settings where
  compareMode : Bool
  expected : Int
  tolerance : ℚ
  inFileName : Str
  outFileName : Str
  searchPath : List Str

/-- The settings in a state. -/
def St.settings (s : St) : Settings where
  compareMode := s.compareMode
  expected := s.obj.expected
  tolerance := s.obj.tolerance
  inFileName := s.obj.inFileName
  outFileName := s.obj.outFileName
  searchPath := s.obj.searchPath

/-- A test program, what `Test` does: it makes measurement calls and sees their results, may look at and change
the surroundings and the settings of the object (tfRegressionTest.h:76-132, tfRegressionTest.cpp:71-115, itktfRegression.cxx:33-46), and ends
by returning a value, by an exception or by another fault. -/
inductive Prog where
  | ret (v : Int)
  | fails (f : Fault)
  | call (c : Call) (k : Int → Prog)
  | act (f : World → World) (k : Prog)
  | look (k : World → Prog)
  | ask (k : Settings → Prog)
  | setTolerance (t : ℚ) (k : Prog)
  | setExpected (v : Int) (k : Prog)
  | setImageTolerance (t : ImgTol) (k : Prog)
  | setSearchPath (ps : List Str) (k : Prog)
  | prependSearchPath (p : Str) (k : Prog)
  | setInFileName (n : Str) (k : Prog)
  | setOutFileName (n : Str) (k : Prog)

/-- Running a test program. -/
def runProg (env : Env) : Prog → St → Res Int
  | .ret v, s => (s, .ok v)
  | .fails f, s => (s, .error f)
  | .call c k, s =>
    match runCall env s c with
    | (s, .error f) => (s, .error f)
    | (s, .ok r) => runProg env (k r) s
  | .act f k, s => runProg env k { s with world := f s.world }
  | .look k, s => runProg env (k s.world) s
  | .ask k, s => runProg env (k s.settings) s
  | .setTolerance t k, s => runProg env k { s with obj := { s.obj with tolerance := t } }
  | .setExpected v k, s => runProg env k { s with obj := { s.obj with expected := v } }
  | .setImageTolerance t k, s => runProg env k { s with obj := { s.obj with imageTol := t } }
  | .setSearchPath ps k, s => runProg env k { s with obj := { s.obj with searchPath := ps } }
  | .prependSearchPath p k, s => runProg env k { s with obj := { s.obj with searchPath := p :: s.obj.searchPath } }
  | .setInFileName n k, s => runProg env k { s with obj := { s.obj with inFileName := n } }
  | .setOutFileName n k, s => runProg env k { s with obj := { s.obj with outFileName := n } }

/-! ## Main -/

/-- The `try` block of `Main`, tfRegressionTest.cpp:301-317: the state, `ret` and the fault that ended it. -/
def tryBlock (env : Env) (test : List Str → Prog) (fuel : Nat) (argv : List Str) (s : St) : St × Int × Option Fault :=
  let s := { s with obj := { s.obj with unmatched := s.obj.unmatched + 1 } }
  match parseArguments s.world.fs fuel s.obj argv with
  | (o, .error f) => ({ s with obj := o }, -1, some f)
  | (o, .ok rest) =>
    match beginMeasurement env { s with obj := o } with
    | (s, .error f) => (s, -1, some f)
    | (s, .ok ()) =>
      match runProg env (test rest) s with
      | (s, .error f) => (s, -1, some f)
      | (s, .ok ret) =>
        let s := endMeasurement s
        ({ s with obj := { s.obj with unmatched := s.obj.unmatched - 1 } }, ret, none)

/-- The value `Main` returns after the `try` block, tfRegressionTest.cpp:331-343. -/
def mainValue (s : St) (ret : Int) : Int :=
  if ret ≠ s.obj.expected then ret
  else if s.compareMode then s.obj.unmatched
  else 0

/-- `Main`, tfRegressionTest.cpp:292-345: C++ exceptions are caught; a failed assertion, undefined behaviour or an endless loop
are not. -/
def main (env : Env) (test : List Str → Prog) (fuel : Nat) (argv : List Str) (s : St) : Res Int :=
  match tryBlock env test fuel argv s with
  | (s, ret, none) => (s, .ok (mainValue s ret))
  | (s, ret, some (.thrown _)) => (s, .ok (mainValue s ret))
  | (s, _, some f) => (s, .error f)

/-- The exit status another process sees of a program that returns `v` from `main`. -/
def exitStatus (v : Int) : Int := v % 256

end Verif.Regression
