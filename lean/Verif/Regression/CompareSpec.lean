import Verif.Regression.Model
import Verif.Measurement.Spec

/-!
# When a baseline measurement and a measurement of the test agree, independently of the visitors
-/

namespace Verif.Regression.Spec

open Verif.Measurement

/-- The last component of a file name. -/
def baseName (p : Str) : Str := (p.reverse.takeWhile (· ≠ 47)).reverse

/-- Where the file of a baseline is read: its last component is looked for in the search path. -/
def located (w : World) (path : List Str) (fileName : Str) : Str :=
  let found := Path.searchPathList w.fs (baseName fileName) path
  if found = [] then fileName else found

/-- One measurement of a test: the call, the tolerances and the search path in force and the files as they were. -/
structure Obs where
  call : Call
  tolerance : ℚ
  imageTol : ImgTol
  path : List Str
  world : World

/-- The observation made by a call in a state. -/
abbrev _root_.Verif.Regression.St.obs (s : St) (c : Call) : Obs := ⟨c, s.obj.tolerance, s.obj.imageTol, s.obj.searchPath, s.world⟩

/-- Do the baseline measurement `b` and the measurement `t` of the test have the same value?  A number is compared by value when a
tolerance applies and otherwise by its text; text by its characters; a file by its bytes, and only if its type is one of the data types.
A baseline may hold text in a file.  In an `itk::Regression` two files of type "image/itk" are compared as images. -/
def SameValue (env : Env) (o : Obs) (b t : Meas) : Prop :=
  match t, b with
  | .data t, .data d => match t.kind with
    | .num k =>
      if o.call.tolerant = true ∧ o.tolerance ≠ 0 then isEqualTolerant env.num k d.content k t.content o.tolerance = .ok true
      else d.content = t.content
    | _ => d.content = t.content
  | .data t, .file f => (∀ k, t.kind ≠ .num k) ∧ o.world.openRead f.fileName = some t.content
  | .file g, .data d => o.world.openRead g.fileName = some d.content
  | .file g, .file f => match env.image, decide (g.type = b!"image/itk") with
    | some im, true => im.compare o.world o.imageTol (cstr g.fileName) (cstr (located o.world o.path f.fileName)) = true
    | _, _ =>
      (∃ k : Kind, k.typeName = g.type) ∧ ∃ x, o.world.openRead g.fileName = some x ∧
        o.world.openRead (located o.world o.path f.fileName) = some x

/-- A baseline measurement and an observed one agree: same name, same type, same value. -/
def Agree (env : Env) (b : Meas) (o : Obs) : Prop :=
  b.name = o.call.meas.name ∧ b.type = o.call.meas.type ∧ SameValue env o b o.call.meas

open Classical in
/-- The number of failures of a comparison position by position: every measurement beyond the baseline fails, and every
measurement that does not agree with the baseline measurement at its position. -/
noncomputable def failures (env : Env) : List Meas → List Obs → Nat
  | _, [] => 0
  | [], _ :: os => 1 + failures env [] os
  | b :: bs, o :: os => (if Agree env b o then 0 else 1) + failures env bs os

/-- A baseline measurement as it is read from a document without base64 encoded elements. -/
def Plainly : Meas → Prop
  | .data d => d.data = none ∧ d.encoding ≠ b!"base64"
  | .file _ => True

/-- What a measurement call is to measure: the XML element, the type, the name, the content and whether a tolerance applies.  The content
of a file measurement is the name of the file.  A number is written in decimal; of a `long` only the `int` congruent to it modulo
`2^32` is kept. -/
inductive Measures : Call → Str → Str → Str → Str → Bool → Prop
  | textString (x n : Str) : Measures (.textString x n) b!"DartMeasurement" b!"text/string" n x false
  | textPlain (x n : Str) : Measures (.textPlain x n) b!"DartMeasurement" b!"text/plain" n x false
  | fileTextPlain (f n : Str) : Measures (.fileTextPlain f n) b!"DartMeasurementFile" b!"text/plain" n f false
  | integer (v w k : Int) (n x : Str) (t : Bool) : w = v + 4294967296 * k → -2147483648 ≤ w → w ≤ 2147483647 →
      Measurement.Spec.IsDecimal w x → Measures (.integer v n t) b!"DartMeasurement" b!"numeric/integer" n x t
  | float (x n : Str) (t : Bool) : Measures (.float x n t) b!"DartMeasurement" b!"numeric/float" n x t
  | double (x n : Str) (t : Bool) : Measures (.double x n t) b!"DartMeasurement" b!"numeric/double" n x t
  | true (n : Str) (t : Bool) : Measures (.boolean true n t) b!"DartMeasurement" b!"numeric/boolean" n b!"1" t
  | false (n : Str) (t : Bool) : Measures (.boolean false n t) b!"DartMeasurement" b!"numeric/boolean" n b!"0" t
  | filePNG (f n : Str) : Measures (.filePNG f n) b!"DartMeasurementFile" b!"image/png" n f false
  | fileJPEG (f n : Str) : Measures (.fileJPEG f n) b!"DartMeasurementFile" b!"image/jpeg" n f false
  | fileITK (f n : Str) : Measures (.fileITK f n) b!"DartMeasurementFile" b!"image/itk" n f false

end Verif.Regression.Spec
