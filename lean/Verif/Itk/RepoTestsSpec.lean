import Verif.Itk.RepoTests
import Verif.Itk.ProgramSpec

/-!
# What the project's tests of image measurements are expected to establish
-/

namespace Verif.Itk.Spec
open Verif.Regression Verif.Measurement

/-- The entry of a baseline for a measurement of an image: under that name and with the type of images, it names a file whose last component, in the data directory, is `place`. -/
def RecordedAt (dataDir : Str) (b : Meas) (name place : Str) : Prop :=
  ∃ f last, b = .file f ∧ f.name = name ∧ f.type = b!"image/itk" ∧ LastComponent f.fileName last ∧ last ≠ [] ∧ InDir dataDir last place

/-- An entry of the baselines of the repository, itktf/Testing/XML. -/
def insightEntry (name file : Str) : Meas := .file { type := b!"image/itk", name := name, fileName := file }

/-- The images that are compared: for each measurement `(name, file)`, in order, the image at the place recorded for it and the image in `file`. -/
def Compared (I : Toolkit) (w : World) (dataDir : Str) : List Meas → List (Str × Str) → List (Image × Image) → Prop
  | _, [], pairs => pairs = []
  | b :: bs, (name, file) :: l, (valid, test) :: pairs => (∃ place v x, RecordedAt dataDir b name place ∧ I.read w place = some v ∧ v.image = valid ∧ I.read w file = some x ∧ x.image = test) ∧
      Compared I w dataDir bs l pairs
  | _, _, _ => False

open Classical in
/-- The number of pairs that are not alike. -/
noncomputable def unlikePairs (I : Toolkit) (t : ImgTol) (pairs : List (Image × Image)) : Nat := (pairs.filter fun p => ¬ Alike I t p.1 p.2).length

/-- Spacing and origin are numbers. -/
def Geometry (x : Image) : Prop := (∀ d ∈ x.spacing, d ≠ none) ∧ ∀ d ∈ x.origin, d ≠ none

/-- All pixels are whole numbers below 2^23 (images of 8 and 16 bits, and more). -/
def Whole23 (x : Image) : Prop := ∀ p, ∃ k : Int, |k| < 2 ^ 23 ∧ x.pixel p = some (k : ℚ)

end Verif.Itk.Spec
