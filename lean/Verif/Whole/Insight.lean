import Verif.Whole.Model
import Verif.Whole.InsightSpec
import Verif.Itk.Names
import Verif.Itk.DataDir

/-!
# Tests that measure sizes, indices, regions, points, vectors, arrays and matrices
-/

namespace Verif.Whole
open Verif.Regression Verif.Itk Verif.Decimal Spec

/-- The measurement function called for a compound, itktfRegression.h:93-184.  The numbers of points, vectors, arrays and matrices are converted to `double`, which is exact for `float`s, `double`s and integers
of up to 53 bits. -/
def _root_.Verif.Whole.Spec.Compound.measure (c : Compound) (k : Int → Prog) : Prog :=
  match c.value with
  | .integers vs => insightIntegers vs c.name c.tolerant k
  | .region index size => insightRegion index size c.name c.tolerant k
  | .numbers qs => insightDoubles (qs.map fun q => doubleText (.ofRat q)) c.name c.tolerant k
  | .matrix rows => insightMatrix (rows.map fun row => row.map fun q => doubleText (.ofRat q)) c.name c.tolerant k

/-- A test that measures compounds one after the other and returns `EXIT_SUCCESS`. -/
def compoundTest : List Compound → Prog
  | [] => .ret 0
  | c :: cs => c.measure fun _ => compoundTest cs

/-- itktfMeasurementInsightRegionTest.cxx:13-37: the region of the image in the file named by the first argument.  `info` is what `itk::ImageFileReader` finds out about a file, or nothing if it throws. -/
def regionTest (info : World → Str → Option (List Int × List Int)) : List Str → Prog
  | _ :: input :: _ => .look fun w =>
    match info w input with
    | none => .fails (.thrown "itk::ExceptionObject")
    | some (index, size) => insightRegion index size b!"Read Region" false fun _ => .ret 0
  | _ => .ret 1

end Verif.Whole
