import Verif.Regression.MainProps

/-!
# Model of `tfPipeToXML.cxx`

The program runs a command and records what it writes as one plain text measurement.  The process library (`itksysProcess_*`) is a
parameter: a command line is turned into the chunks of data that arrive, in the order of arrival, and a final state.
-/

namespace Verif.Pipe
open Verif.Regression

/-- Where a chunk comes from; without a timeout `itksysProcess_WaitForData` returns one of these, or 0 at the end. -/
inductive Source where
  | stdout
  | stderr
  deriving Repr, DecidableEq

/-- The states of `itksysProcess_GetState`, tfPipeToXML.cxx:57-83. -/
inductive EndState where
  | starting
  | executing
  | expired
  | exited (value : Int)
  | killed
  | exception
  | disowned
  | error
  deriving Repr, DecidableEq

/-- What happens to a command: the chunks of data that arrive and the final state. -/
structure Child where
  chunks : List (Source × Str)
  final : EndState

/-- The process library: from the command line to the behaviour of the command. -/
abbrev Launch := List Str → Child

/-- The read loop, tfPipeToXML.cxx:49-52: every chunk is appended, whatever pipe it comes from. -/
def readLoop : List (Source × Str) → Str → Str
  | [], acc => acc
  | (_, d) :: rest, acc => readLoop rest (acc ++ d)

/-- The copy of the arguments, tfPipeToXML.cxx:22-31: the text written to `std::cout`. -/
def echoLoop : Nat → List Str → Str
  | _, [] => []
  | i, a :: rest => (if i ≠ 1 then b!" " else []) ++ a ++ echoLoop (i + 1) rest

/-- The return value, tfPipeToXML.cxx:37, 57-83. -/
def retOf : EndState → Int
  | .exited v => v
  | _ => -1

/-- `std::cout << text` by the test itself. -/
def toCout (t : Str) (w : World) : World := { w with cout := w.cout ++ t }

/-- `Test`, tfPipeToXML.cxx:17-91.  With `argc = 0` line 31 writes in front of an array of length 0.  What the program writes to
`std::cerr` is left out here (see Verif/Stderr/Programs.lean). -/
def test (launch : Launch) : List Str → Prog
  | [] => .fails (.ub "cmd[argc - 1] with argc = 0")
  | _ :: args =>
    let child := launch args
    .act (toCout (b!"Redirecting output from: \"" ++ echoLoop 1 args ++ b!"\"\n")) <|
      .call (.textPlain (readLoop child.chunks []) b!"stdout") fun _ =>
        .ret (retOf child.final)

/-- The program, tfPipeToXML.cxx:96-102. -/
def program (env : Env) (launch : Launch) (fuel : Nat) (argv : List Str) (s : St) : Res Int :=
  main env (test launch) fuel argv s

end Verif.Pipe
