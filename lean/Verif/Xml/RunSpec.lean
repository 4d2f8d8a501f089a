import Verif.Regression.CompareSpec
import Verif.Measurement.Spec

/-!
# What a recording run is to write, independently of the model
-/

namespace Verif.Regression.Spec
open Verif.Measurement Verif.Measurement.Spec

/-- Everything written so far to an output file, or to standard output. -/
def written (os : Option Str) (w : World) : Str :=
  match os with
  | none => w.cout
  | some n => w.bytes (cstr n)

/-- A program that itself leaves the output file (or standard output) alone and does not choose a baseline. -/
def Keeps (os : Option Str) : Prog → Prop
  | .ret _ => True
  | .fails _ => True
  | .call _ k => ∀ r, Keeps os (k r)
  | .act f k => (∀ w, written os (f w) = written os w) ∧ Keeps os k
  | .look k => ∀ w, Keeps os (k w)
  | .ask k => ∀ x, Keeps os (k x)
  | .setTolerance _ k => Keeps os k
  | .setExpected _ k => Keeps os k
  | .setImageTolerance _ k => Keeps os k
  | .setSearchPath _ k => Keeps os k
  | .prependSearchPath _ k => Keeps os k
  | .setInFileName n k => n = [] ∧ Keeps os k
  | .setOutFileName _ k => Keeps os k

/-- A measurement as it is recorded: a file is recorded by the last component of its name. -/
def recordedMeas (c : Call) : Meas :=
  match c.meas with
  | .data d => .data d
  | .file f => .file { f with fileName := baseName f.fileName }

/-- The line of the output for a measurement. -/
def line (m : Meas) : Str :=
  let element := match m with | .data _ => b!"DartMeasurement" | .file _ => b!"DartMeasurementFile"
  b!"<" ++ element ++ b!" name=\"" ++ m.name ++ b!"\" type=\"" ++ m.type ++ b!"\">" ++ m.content.flatMap xmlChar ++ b!"</" ++ element ++ b!">\n"

/-- A test that makes these calls in a row and returns `v`. -/
def straight (v : Int) : List Call → Prog
  | [] => .ret v
  | c :: cs => .call c fun _ => straight v cs

/-- Calls compared by their text: strings, plain texts and numbers without tolerance. -/
def TextCall (c : Call) : Prop := (∃ d, c.meas = .data d) ∧ c.tolerant = false

/-- The number of measurements that are not the baseline measurement at their position. -/
def mismatches : List Meas → List Meas → Nat
  | _, [] => 0
  | [], _ :: os => 1 + mismatches [] os
  | b :: bs, o :: os => (if b = o then 0 else 1) + mismatches bs os

end Verif.Regression.Spec
