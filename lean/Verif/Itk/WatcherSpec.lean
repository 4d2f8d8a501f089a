import Verif.Prelude

/-!
# What a filter tells a watcher, and what the watcher should print
-/

namespace Verif.Itk.Spec

/-- The events of a filter a watcher is told of. -/
inductive Event where
  | start | finish | progress | iteration | abort
  deriving DecidableEq, Repr

/-- The text for an event of a filter of class `name`, watched with a comment. -/
def piece (name comment : Str) : Event → Str
  | .start => b!"-------- Start " ++ name ++ b!" \"" ++ comment ++ b!"\" "
  | .finish => b!"\n-------- End " ++ name ++ b!" \"" ++ comment ++ b!"\" \n"
  | .progress => []
  | .iteration => b!" # "
  | .abort => b!"\n      ABORT\n"

/-- Iterations come after a start, and there are less than 2^31 of them between two starts; `k`: the number since the last start, none if there was no start. -/
def Orderly : Option Nat → List Event → Prop
  | _, [] => True
  | _, .start :: r => Orderly (some 0) r
  | none, .iteration :: _ => False
  | some k, .iteration :: r => k + 1 < 2 ^ 31 ∧ Orderly (some (k + 1)) r
  | k, .finish :: r => Orderly k r
  | k, .progress :: r => Orderly k r
  | k, .abort :: r => Orderly k r

end Verif.Itk.Spec
