import Verif.Measurement.Compare

/-!
# Model of `DifferenceVisitor`, tfMeasurementVisitor.{h,cpp}

The text `Diff` computes is a parameter here; it is the function modelled in `Verif/Diff`.
-/

namespace Verif.Measurement

/-- `DifferenceVisitor::Visit(Measurement&)` with `AddPrefixesToNames`, tfMeasurementVisitor.cpp:92-99, 119-123: the text written. -/
def differenceGeneral (baseline test : Meas) : Except Fault Str :=
  let baseline := baseline.setName (b!"Baseline " ++ baseline.name)
  let test := test.setName (b!"Test " ++ test.name)
  match test.print with
  | .error f => .error f
  | .ok a => match baseline.print with
    | .error f => .error f
    | .ok b => .ok (a ++ b!"\n" ++ b ++ b!"\n")

/-- `DifferenceVisitor::Visit(PlainText&)`, tfMeasurementVisitor.cpp:103-113: the text written. -/
def differencePlain (diff : Str → Str → Except Fault Str) (baseline test : Meas) : Except Fault Str :=
  match diff baseline.content test.content with
  | .error f => .error f
  | .ok t =>
    match (Meas.data { kind := .plain, name := b!"Difference " ++ test.name, content := t }).print with
    | .error f => .error f
    | .ok s => .ok (s ++ b!"\n")

/-- The overloads `DifferenceVisitor` overrides, tfMeasurementVisitor.h:117-131. -/
def differenceOwn (diff : Str → Str → Except Fault Str) : Cls → Option (Meas → Meas → Except Fault Str)
  | .measurement => some differenceGeneral
  | .plainText => some (differencePlain diff)
  | _ => none

/-- `test.AcceptVisitor(vis)` for a `DifferenceVisitor` with the given baseline: the text written. -/
def difference (diff : Str → Str → Except Fault Str) (baseline test : Meas) : Except Fault Str :=
  match dispatch (differenceOwn diff) test.cls with
  | some h => h baseline test
  | none => .ok []

end Verif.Measurement
