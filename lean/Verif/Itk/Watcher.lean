import Verif.Itk.WatcherSpec

/-!
# Model of `itktfFilterWatcher.h`
-/

namespace Verif.Itk
open Spec

/-- The object, itktfFilterWatcher.h:95-101.  `m_Iterations` is not initialised by the constructor (itktfFilterWatcher.h:36-40); the name is what
`GetNameOfClass` of the filter returns. -/
structure Watcher where
  name : Str
  comment : Str
  steps : Int := 0
  iterations : Option Int := none
  os : Str

/-- The call backs, itktfFilterWatcher.h:66-94; the constructor (48-60) registers each for its event. -/
def Watcher.notify (w : Watcher) : Event → Except Fault Watcher
  | .progress => .ok w
  | .abort => .ok { w with os := w.os ++ b!"\n" ++ b!"      ABORT" ++ b!"\n" }
  | .iteration =>
    match w.iterations with
    | none => .error (.ub "m_Iterations is not initialised")
    | some n => if n = 2147483647 then .error (.ub "signed overflow") else .ok { w with os := w.os ++ b!" # ", iterations := some (n + 1) }
  | .start => .ok { w with steps := 0, iterations := some 0, os := w.os ++ b!"-------- Start " ++ w.name ++ b!" \"" ++ w.comment ++ b!"\" " }
  | .finish => .ok { w with os := w.os ++ b!"\n" ++ b!"-------- End " ++ w.name ++ b!" \"" ++ w.comment ++ b!"\" " ++ b!"\n" }

/-- The events of a filter, one after the other. -/
def Watcher.run (w : Watcher) : List Event → Except Fault Watcher
  | [] => .ok w
  | e :: r => do
    let w ← w.notify e
    w.run r

end Verif.Itk
