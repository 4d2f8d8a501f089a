import Verif.Itk.Spec
import Verif.Itk.Visitor
import Verif.Xml.RunSpec

/-!
# What is to be written about two images that differ
-/

namespace Verif.Itk.Spec
open Verif.Measurement Verif.Regression Verif.Regression.Spec

/-- Two vectors of numbers differ in some place; a value that is not a number differs from everything. -/
def VecDiffers (a b : List Dbl) : Prop := ∃ (i : Nat) (x y : Dbl), a[i]? = some x ∧ b[i]? = some y ∧ ¬ ∃ q, x = some q ∧ y = some q

/-- A text under a name. -/
def text (name content : Str) : Meas := .data { kind := .string, name := name, content := content }

/-- The middle slice of a region: the first two dimensions from index 0 in full size, of the others the middle index. -/
def middle (r : Region) : Region :=
  r.zipIdx.map fun x => if x.2 < 2 then (0, x.1.2) else ((x.1.2 / 2 : Nat), 0)

open Classical in
/-- What differs in the descriptions of two images of the same size, each as two measurements, of the baseline and of the test. -/
noncomputable def described (I : Toolkit) (name : Str) (lb lt : Loaded) (cb ct : Str) : List Meas :=
  (if VecDiffers lb.image.spacing lt.image.spacing then
    [text (b!"Baseline Spacing " ++ name) (I.texts.vector lb.image.spacing), text (b!"Test Spacing " ++ name) (I.texts.vector lt.image.spacing)]
  else []) ++
  (if VecDiffers lb.image.origin lt.image.origin then
    [text (b!"Baseline Origin " ++ name) (I.texts.vector lb.image.origin), text (b!"Test Origin " ++ name) (I.texts.vector lt.image.origin)]
  else []) ++
  (if lb.pixelType ≠ lt.pixelType then [text (b!"Baseline PixelType " ++ name) lb.pixelType, text (b!"Test PixelType " ++ name) lt.pixelType] else []) ++
  (if lb.componentType ≠ lt.componentType then
    [text (b!"Baseline ComponentType " ++ name) lb.componentType, text (b!"Test ComponentType " ++ name) lt.componentType]
  else []) ++
  (if lb.components ≠ lt.components then
    [.data { kind := .num .integer, name := b!"Baseline Number Of Components " ++ name, content := cb },
      .data { kind := .num .integer, name := b!"Test Number Of Components " ++ name, content := ct }]
  else [])

/-- An image written for the dashboard. -/
def picture (I : Toolkit) (name fileName ext : Str) : Meas :=
  .file { type := b!"image/png", name := b!"Difference " ++ name, fileName := I.texts.outputDirectory ++ b!"/" ++ baseName fileName ++ ext }

/-- The report about two images of the same size of which `n` pixels differ. -/
noncomputable def report (I : Toolkit) (name fileName : Str) (lb lt : Loaded) (cb ct : Str) (n : Nat) : Str :=
  (described I name lb lt cb ct).flatMap line ++
  line (.data { kind := .num .double, name := b!"ImageError " ++ name, content := I.texts.double n }) ++
  I.texts.region (middle lb.image.region) ++ line (picture I name fileName b!".diff.png") ++
  I.texts.region (middle lb.image.region) ++ line (picture I name fileName b!".base.png") ++
  I.texts.region (middle lt.image.region) ++ line (picture I name fileName b!".test.png")

end Verif.Itk.Spec
