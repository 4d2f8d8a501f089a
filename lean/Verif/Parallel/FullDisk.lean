import Verif.Parallel.Model

/-!
# A run whose output does not fit

The output of a run is a `std::ofstream` (tfRegressionTest.cpp:143-153).  When the disk is full, or a quota or a limit is reached, what does not fit is lost: the stream is
in an error state then and takes no more (tfRegressionTest.cpp never looks at it).  The file holds the first bytes of what was written.
-/

namespace Verif.Parallel
open Verif.Regression

/-- The files when the output takes at most `n` bytes, tfRegressionTest.cpp:143-153 (the stream), 589-606 and tfRegressionTest.cpp:441-584 (what is written to it, unchecked). -/
def Files.cut (n : Nat) (os : Option Str) (g : Files) : Files :=
  match os with
  | none => g
  | some f => { g with bytes := fun m => if m = cstr f then (g.bytes m).take n else g.bytes m }

/-- One step of a process whose output takes at most `n` bytes: what does not fit is lost, and the process does not notice. -/
def Process.stepOn (n : Nat) (p : Process) (g : Files) : Files × Process := (((p.step g).1).cut n p.obj.os, (p.step g).2)

/-- A number of steps of a process whose output takes at most `n` bytes. -/
def aloneOn (n : Nat) : Nat → Files × Process → Files × Process
  | 0, x => x
  | k + 1, (g, p) => aloneOn n k (p.stepOn n g)

end Verif.Parallel
