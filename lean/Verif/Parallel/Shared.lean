import Verif.Parallel.Model

/-!
# Runs that write to the same output file

`std::ofstream` (tfRegressionTest.cpp:143-153): opening a file empties it; what is written is kept in a buffer and put into the file in pieces, each at the place where
the last one of the same stream ended.  Two streams on one file do not know of each other: each has its own place in the file.
-/

namespace Verif.Parallel
open Verif.Regression

/-- A text put into a file at a position; what is skipped is filled with NUL.  This is `write(2)`, under the `std::ofstream` of tfRegressionTest.cpp:143-153. -/
def putAt (b : Str) (pos : Nat) (t : Str) : Str :=
  if t = [] then b else (b ++ List.replicate (pos - b.length) 0).take pos ++ t ++ b.drop (pos + t.length)

/-- The output stream of a process, tfRegressionTest.cpp:143-153: its place in the file, and what is still in its buffer. -/
structure Stream where
  pos : Nat := 0
  pending : Str := []

/-- Processes that share an output file. -/
structure Shared (ι : Type) where
  files : Files
  procs : ι → Process
  stream : ι → Stream

/-- Whose turn it is: a process makes a step, or a stream puts some bytes of its buffer into the file. -/
inductive Turn (ι : Type) where
  | step (i : ι)
  | flush (i : ι) (n : Nat)

/-- The files with another content of one file. -/
def Files.with (g : Files) (f : Str) (b : Str) : Files := { g with bytes := fun m => if m = cstr f then b else g.bytes m }

/-- One turn of the processes, of which `f` is the output file, tfRegressionTest.cpp:292-345 and 143-153.  What a step adds to the output (in the model of `Verif/Parallel/Model.lean`, where it is written at once)
goes to the buffer; when the output is opened the stream starts at the beginning of the file. -/
def turn {ι : Type} [DecidableEq ι] (f : Str) : Turn ι → Shared ι → Shared ι
  | .step i, z =>
    let r := (z.procs i).step z.files
    let procs := Function.update z.procs i r.2
    if (z.procs i).obj.os = some f then
      let written := (r.1.bytes (cstr f)).drop (z.files.bytes (cstr f)).length
      ⟨r.1.with f (z.files.bytes (cstr f)), procs, Function.update z.stream i ⟨(z.stream i).pos, (z.stream i).pending ++ written⟩⟩
    else if r.2.obj.os = some f then ⟨r.1, procs, Function.update z.stream i ⟨0, []⟩⟩
    else ⟨r.1, procs, z.stream⟩
  | .flush i n, z =>
    let t := (z.stream i).pending.take n
    ⟨z.files.with f (putAt (z.files.bytes (cstr f)) (z.stream i).pos t), z.procs,
      Function.update z.stream i ⟨(z.stream i).pos + t.length, (z.stream i).pending.drop n⟩⟩

/-- A schedule. -/
def turns {ι : Type} [DecidableEq ι] (f : Str) : List (Turn ι) → Shared ι → Shared ι
  | [], z => z
  | t :: sched, z => turns f sched (turn f t z)

end Verif.Parallel
