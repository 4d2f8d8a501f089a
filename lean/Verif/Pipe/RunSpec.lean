import Verif.Pipe.Spec
import Verif.Regression.Spec
import Verif.Xml.Spec

/-!
# What a run of `tfPipeToXML` with a baseline is expected to return
-/

namespace Verif.Pipe.Spec
open Verif.Regression Verif.Regression.Spec

/-- The result of a command: its exit value, or -1 if it ended in any other way. -/
inductive Result (c : Child) : Int → Prop
  | exited (v : Int) : c.final = .exited v → Result c v
  | other : (∀ v, c.final ≠ .exited v) → Result c (-1)

/-- The result that is expected, by the last `-R` of the options, or 0. -/
def expectation (ps : List (Str × Str)) : Int :=
  match lastValue b!"-R" ps with
  | none => 0
  | some v => strtolInt v

/-- Arguments of which some are the XML text of measurements, and the others are text without `&`, `<` and `>`; and those measurements. -/
inductive Injected : List Str → List Measurement.Meas → Prop
  | nil : Injected [] []
  | harmless (a : Str) (l : List Str) (ms : List Measurement.Meas) : (∀ c ∈ a, Xml.Spec.TextChar c) → Injected l ms → Injected (a :: l) ms
  | element (m : Measurement.Meas) (a : Str) (l : List Str) (ms : List Measurement.Meas) : Xml.Spec.Clean m → m.print = .ok a → Injected l ms → Injected (a :: l) (m :: ms)

end Verif.Pipe.Spec
