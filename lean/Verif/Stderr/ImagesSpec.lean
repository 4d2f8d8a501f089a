import Verif.Stderr.Images
import Verif.Stderr.Spec

/-!
# What is expected on the error stream about images
-/

namespace Verif.Stderr.Spec
open Verif.Measurement Verif.Regression Verif.Itk Verif.Regression.Spec

/-- What ITK says does not depend on what was written to the standard output. -/
def Steady (C : Complaints) : Prop :=
  ∀ (w : World) (out n : Str), C.rescaling { w with cout := out } n = C.rescaling w n ∧ C.writing { w with cout := out } n = C.writing w n

/-- The start of the report about an image that cannot be read; a C string ends at a zero byte. -/
def cannotRead (name description : Str) : Str := b!"Exception detected while reading " ++ cstr name ++ b!" : " ++ cstr description

/-- An exception with or without a text: a line with the name of the image, and one with the text. -/
def aboutException (what name : Str) (e : Option (Option Str)) : List Str :=
  match e with
  | none => []
  | some text => (what ++ b!" of " ++ name ++ b!"\n") :: (text.map fun t => cstr t ++ b!"\n").toList

/-- The lines about an image for the dashboard: it cannot be rescaled, it cannot be written. -/
def aboutPng (C : Complaints) (w : World) (name : Str) : List Str :=
  aboutException b!"Error during rescale" name (C.rescaling w name) ++ aboutException b!"Error during exctraction and writing" name (C.writing w name)

/-- The name of an image for the dashboard. -/
def pngName (dir file ext : Str) : Str := Path.append dir (baseName file ++ ext)

end Verif.Stderr.Spec
