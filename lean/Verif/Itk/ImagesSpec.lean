import Verif.Itk.Spec
import Verif.Itk.Images

/-!
# When the images of two runs count as the same
-/

namespace Verif.Itk.Spec
open Verif.Regression

/-- A test image counts as the valid one: the same size and spacing, an origin made of numbers, and at most twice the tolerated number of pixels
with a difference. -/
def Alike (I : Toolkit) (t : ImgTol) (valid test : Image) : Prop :=
  valid.region.size = test.region.size ∧ differVec valid.spacing test.spacing = false ∧ differVec valid.origin valid.origin = false ∧
    count valid.region (Differs I.arith t.intensity t.radius valid test) ≤ 2 * t.pixels

open Classical in
/-- The number of images of the second list that are not recorded at their position of the first, under the same name and alike. -/
noncomputable def unlikeImages (I : Toolkit) (t : ImgTol) : List (Str × Image) → List (Str × Image) → Nat
  | _, [] => 0
  | [], _ :: ys => 1 + unlikeImages I t [] ys
  | x :: xs, y :: ys => (if x.1 = y.1 ∧ Alike I t x.2 y.2 then 0 else 1) + unlikeImages I t xs ys

/-- The files of a run that measures `n` images: the names generated one after the other. -/
def FilesOf (ns : Names) (n : Nat) (files : List Str) : Prop := ns.generateAll (List.replicate n (b!"mha", [])) = .ok files

/-- The reader delivers what `dec` makes of the bytes of a file that can be read. -/
def ReadsFiles (I : Toolkit) (dec : Str → Option Loaded) : Prop := ∀ w n, I.read w n = (w.openRead n).bind dec

/-- An image comes back from a file as it was written. -/
def Survives (enc : Image → Str) (dec : Str → Option Loaded) (image : Image) : Prop := ∃ l, dec (enc image) = some l ∧ l.image = image

end Verif.Itk.Spec
