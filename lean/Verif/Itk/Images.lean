import Verif.Itk.Visitor

/-!
# Model of `MeasurementInsightImage`, itktfRegression.h:75-89

An image is written to a file with a generated name, and that file is measured.  What `itk::ImageFileWriter` writes for an image is a parameter.
-/

namespace Verif.Itk
open Verif.Regression Verif.Measurement

/-- The writer has written an image, itktfRegression.h:82-86: the file is made anew and holds what `enc` makes of the image. -/
def saveImage (enc : Image → Str) (w : World) (file : Str) (image : Image) : World :=
  match w.openWrite file with
  | none => w
  | some w => { w with bytes := fun m => if m = cstr file then enc image else w.bytes m }

/-- `MeasurementInsightImage`, itktfRegression.h:75-89.  A file that cannot be made makes `Update` throw.  `k` gets the names as they are afterwards and
the result. -/
def insightImage (enc : Image → Str) (ns : Names) (image : Image) (name : Str) (k : Names → Int → Prog) : Prog :=
  match ns.generate b!"mha" [] with
  | (_, .error f) => .fails f
  | (ns, .ok file) => .look fun w =>
    if w.creatable (cstr file) then .act (fun w => saveImage enc w file image) (.call (.fileITK file name) (k ns))
    else .fails (.thrown "itk::ExceptionObject")

/-- A test that measures images in a row, each under a name, and returns 0. -/
def imagesTest (enc : Image → Str) : Names → List (Str × Image) → Prog
  | _, [] => .ret 0
  | ns, (name, image) :: rest => insightImage enc ns image name fun ns _ => imagesTest enc ns rest

end Verif.Itk
