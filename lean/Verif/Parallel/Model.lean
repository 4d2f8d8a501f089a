import Verif.Regression.Model
import Mathlib.Logic.Function.Basic

/-!
# Regression tests that run at the same time

Several processes run `Main` on one file system (`ctest -j`).  The function `Main` of `Verif/Regression/Model.lean` is taken apart into steps; the
steps of different processes can be interleaved in any way.  A step is at most one action on a file of `Main` (to parse the
command line, to open the output, to open and read the input, to write the header or take over the baseline, the end), one measurement call or one action of the test itself.
A measurement call is one step: it reads the files that are compared, and writes to the output.
-/

namespace Verif.Parallel
open Verif.Regression
open Verif.Path (FileSys)

/-- What all processes see: the files.  Standard output belongs to a process. -/
structure Files where
  fs : FileSys
  bytes : Str → Str
  creatable : Str → Bool

/-- How far a process has come in `Main`, tfRegressionTest.cpp:292-345. -/
inductive Stage where
  | starting (fuel : Nat) (argv : List Str)
  | output (rest : List Str)
  | input (rest : List Str)
  | baseline (rest : List Str)
  | testing (p : Prog)
  | ended (result : Except Fault Int)

/-- A process: its class (what the libraries contribute and the method `Test`), its object, its standard output, what it finds as name of the host and as time, and how far it has come. -/
structure Process where
  env : Env
  test : List Str → Prog
  obj : Obj
  cout : Str
  host : Str
  time : Str
  stage : Stage

/-- The state of a run as a process sees it. -/
def Process.state (p : Process) (g : Files) : St := ⟨p.obj, ⟨g.fs, g.bytes, g.creatable, p.cout, p.host, p.time⟩⟩

/-- The files in a state. -/
def filesOf (s : St) : Files := ⟨s.world.fs, s.world.bytes, s.world.creatable⟩

/-- The process after a step that led to the state. -/
def Process.next (p : Process) (s : St) (stage : Stage) : Process :=
  { p with obj := s.obj, cout := s.world.cout, host := s.world.host, time := s.world.time, stage := stage }

/-- Files and process after a step. -/
def Process.to (p : Process) (s : St) (stage : Stage) : Files × Process := (filesOf s, p.next s stage)

/-- The end of `Main` by a fault in the `try` block, tfRegressionTest.cpp:318-343: exceptions are caught. -/
def caught (s : St) : Fault → Except Fault Int
  | .thrown _ => .ok (mainValue s (-1))
  | f => .error f

/-- After a step of `Main` in the `try` block. -/
def Process.after {α : Type} (p : Process) (r : Res α) (stage : α → Stage) : Files × Process :=
  match r with
  | (s, .error f) => p.to s (.ended (caught s f))
  | (s, .ok a) => p.to s (stage a)

/-- The end of the `try` block, tfRegressionTest.cpp:308-317. -/
def finish (s : St) : St :=
  { endMeasurement s with obj := { (endMeasurement s).obj with unmatched := (endMeasurement s).obj.unmatched - 1 } }

/-- One step of the test, as in `Regression.runProg`. -/
def stepTest (p : Process) (s : St) : Prog → Files × Process
  | .ret v => p.to (finish s) (.ended (.ok (mainValue (finish s) v)))
  | .fails f => p.to s (.ended (caught s f))
  | .call c k => p.after (runCall p.env s c) fun r => .testing (k r)
  | .act f k => p.to { s with world := f s.world } (.testing k)
  | .look k => p.to s (.testing (k s.world))
  | .ask k => p.to s (.testing (k s.settings))
  | .setTolerance t k => p.to { s with obj := { s.obj with tolerance := t } } (.testing k)
  | .setExpected v k => p.to { s with obj := { s.obj with expected := v } } (.testing k)
  | .setImageTolerance t k => p.to { s with obj := { s.obj with imageTol := t } } (.testing k)
  | .setSearchPath ps k => p.to { s with obj := { s.obj with searchPath := ps } } (.testing k)
  | .prependSearchPath d k => p.to { s with obj := { s.obj with searchPath := d :: s.obj.searchPath } } (.testing k)
  | .setInFileName n k => p.to { s with obj := { s.obj with inFileName := n } } (.testing k)
  | .setOutFileName n k => p.to { s with obj := { s.obj with outFileName := n } } (.testing k)

/-- The command line, tfRegressionTest.cpp:301-304. -/
def stepArguments (p : Process) (s : St) (fuel : Nat) (argv : List Str) : Files × Process :=
  match parseArguments s.world.fs fuel { s.obj with unmatched := s.obj.unmatched + 1 } argv with
  | (o, .error f) => p.to ⟨o, s.world⟩ (.ended (caught ⟨o, s.world⟩ f))
  | (o, .ok rest) => p.to ⟨o, s.world⟩ (.output rest)

/-- One step of a process, tfRegressionTest.cpp:292-345; a process that has ended does nothing. -/
def Process.step (p : Process) (g : Files) : Files × Process :=
  match p.stage with
  | .starting fuel argv => stepArguments p (p.state g) fuel argv
  | .output rest => p.after (openOutput (p.state g)) fun _ => .input rest
  | .input rest => p.after (openInput (p.state g)) fun _ => .baseline rest
  | .baseline rest => p.after (startOrRead p.env (p.state g)) fun _ => .testing (p.test rest)
  | .testing q => stepTest p (p.state g) q
  | .ended _ => (g, p)

/-- Processes that run at the same time: the schedule says whose turn it is. -/
def run {ι : Type} [DecidableEq ι] : List ι → Files × (ι → Process) → Files × (ι → Process)
  | [], x => x
  | i :: sched, (g, ps) => run sched (((ps i).step g).1, Function.update ps i ((ps i).step g).2)

/-- A process alone: a number of steps. -/
def alone : Nat → Files × Process → Files × Process
  | 0, x => x
  | n + 1, (g, p) => alone n (p.step g)

/-- A process that is about to call `Main`: its class, its command line, its object, what has been written to standard output, and the name of the host and the time. -/
structure Start where
  env : Env
  test : List Str → Prog
  fuel : Nat
  argv : List Str
  obj : Obj := {}
  cout : Str := []
  host : Str := []
  time : Str := []

/-- The process. -/
def Start.process (x : Start) : Process :=
  { env := x.env, test := x.test, obj := x.obj, cout := x.cout, host := x.host, time := x.time, stage := .starting x.fuel x.argv }

/-- The state in which `Main` is called when the files are these. -/
def Start.state (x : Start) (g : Files) : St := ⟨x.obj, ⟨g.fs, g.bytes, g.creatable, x.cout, x.host, x.time⟩⟩

end Verif.Parallel
