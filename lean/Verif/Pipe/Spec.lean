import Verif.Pipe.Model

/-!
# What `tfPipeToXML` is expected to do
-/

namespace Verif.Pipe.Spec
open Verif.Regression

/-- Everything the command wrote, on either pipe, in the order of arrival. -/
def everything (c : Child) : Str := (c.chunks.map (·.2)).flatten

/-- What the command wrote to its standard output. -/
def standardOutput (c : Child) : Str := ((c.chunks.filter (fun x => x.1 = .stdout)).map (·.2)).flatten

/-- Words separated by single spaces. -/
def commandLine : List Str → Str
  | [] => []
  | a :: l => a ++ (l.map (b!" " ++ ·)).flatten

/-- The state in which the measurement is made: the command line has been written to standard output. -/
def announced (s : St) (args : List Str) : St :=
  { s with world := { s.world with cout := s.world.cout ++ (b!"Redirecting output from: \"" ++ commandLine args ++ b!"\"\n") } }

end Verif.Pipe.Spec
