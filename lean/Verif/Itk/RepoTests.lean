import Verif.Itk.Images
import Verif.Itk.DataDir
import Verif.Path.Model
import Verif.Decimal.Model

/-!
# Model of the project's own tests of image measurements, itktf/Testing

`itktfMeasurementFileImageInsightTest1.cxx` to `…Test4.cxx`.  The directories `ITK_REGRESSION_DATA_BASELINE` and `ITK_REGRESSION_INPUT` are the same directory (itktfRegressionSupport.h.in:10-11).
-/

namespace Verif.Itk
open Verif.Regression Verif.Measurement Verif.Decimal

/-- A test that measures files, each under a name, and returns `EXIT_SUCCESS`. -/
def measureFiles : List (Str × Str) → Prog
  | [] => .ret 0
  | (name, file) :: rest => .call (.fileITK file name) fun _ => measureFiles rest

/-- itktfMeasurementFileImageInsightTest1.cxx:10-19. -/
def repoTest1 (dataDir : Str) (_ : List Str) : Prog :=
  measureFiles [(b!"Insight PNG Image", Path.append dataDir b!"vm_head_coronal.png"), (b!"Insight JPEG Image", Path.append dataDir b!"vm_head_coronal.jpg")]

/-- itktfMeasurementFileImageInsightTest2.cxx:10-26: other images are measured when comparing than when recording. -/
def repoTest2 (dataDir : Str) (_ : List Str) : Prog := .ask fun s =>
  if s.compareMode then
    measureFiles [(b!"Different Images PNG", Path.append dataDir b!"vm_head_coronal.png"), (b!"Different Images PNG to JPEG", Path.append dataDir b!"vm_head_coronal.jpg")]
  else
    measureFiles [(b!"Different Images PNG", Path.append dataDir b!"vm_head_coronal_diff.png"), (b!"Different Images PNG to JPEG", Path.append dataDir b!"vm_head_coronal.png")]

/-- The exit status of itktfMeasurementFileImageInsightTest2, itktfMeasurementFileImageInsightTest2.cxx:31-44, as a function of what `Main` returns. -/
def repoTest2Status (ret : Int) : Int := if 2 = ret then 0 else 1

/-- A file is read, `f` is made of the image in it, the result is written and measured under the tolerances: what itktfMeasurementFileImageInsightTest3.cxx:21-34 and
itktfMeasurementFileImageInsightTest4.cxx:28-66 have in common.  Reading and writing throw if they fail; a file that is written to is not read any more by this test. -/
def filterTest (I : Toolkit) (enc : Image → Str) (f : Image → Image) (t : ImgTol) (input output name : Str) : Prog := .look fun w =>
  match I.read w input with
  | none => .fails (.thrown "itk::ExceptionObject")
  | some x =>
    if w.creatable (cstr output) then .act (fun w => saveImage enc w output (f x.image)) (.setImageTolerance t (.call (.fileITK output name) fun _ => .ret 0))
    else .fails (.thrown "itk::ExceptionObject")

/-- itktfMeasurementFileImageInsightTest3.cxx:15-34: the image is copied; the tolerances are those of the constructor. -/
def repoTest3 (I : Toolkit) (enc : Image → Str) (dataDir outputDir : Str) (_ : List Str) : Prog :=
  filterTest I enc id ⟨0, 0, 0⟩ (Path.append dataDir b!"vm_head_coronal.png") (Path.append outputDir b!"itktfTest3.png") b!"Pipelined Image"

/-- Rounding to `float`, with the sign and without an upper limit. -/
def nearestSingle (q : ℚ) : ℚ := if q < 0 then -single.nearest |q| else single.nearest |q|

/-- `itk::AddImageFilter` of images of `float`s: an image and a number for each pixel; the result has the geometry of the first input, itktfMeasurementFileImageInsightTest4.cxx:50-53. -/
def addNoise (noise : Index → ℚ) (x : Image) : Image := { x with pixel := fun p => (x.pixel p).map fun v => nearestSingle (v + noise p) }

/-- itktfMeasurementFileImageInsightTest4.cxx:17-66; `noise` is what `itk::RandomImageSource` delivers. -/
def repoTest4 (I : Toolkit) (enc : Image → Str) (noise : Index → ℚ) : List Str → Prog
  | _ :: input :: output :: _ => filterTest I enc (addNoise noise) ⟨1, 0, 0⟩ input output b!"Tolerant Image Output"
  | _ => .ret 1

end Verif.Itk
