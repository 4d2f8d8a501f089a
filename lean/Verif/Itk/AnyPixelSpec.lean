import Verif.Itk.AnyPixel
import Verif.Itk.Spec

/-!
# What the comparison of images with any type of pixels is expected to compute
-/

namespace Verif.Itk.Any.Spec
open Verif.Itk.Spec (Inside Near)

section
variable {V R O K : Type} [LinearOrder K]

/-- The squared distance, as computed, between the pixel `p` of the valid and the pixel `q` of the test image; `none` if it is not a number. -/
def distance2 (X : PixelType V R O K) (valid test : Image V) (p q : Index) : Option K := X.norm2 (X.sub (valid.pixel p) (test.pixel q))

/-- Both are numbers, and the second is not larger. -/
def Within (bound d : Option K) : Prop := ∃ b y, bound = some b ∧ d = some y ∧ y ≤ b

/-- Both are numbers, and the second is larger. -/
def Exceeds (bound d : Option K) : Prop := ∃ b y, bound = some b ∧ d = some y ∧ b < y

/-- A pixel with a difference: the value at the same place is too far away, and no value of the test image within the radius is close enough.  If boundary pixels
are ignored, moreover all places within the radius are in the test image. -/
def Differs (X : PixelType V R O K) (P : Params K) (valid test : Image V) (p : Index) : Prop :=
  (P.ignoreBoundary = true → ∀ q, Near P.radius p q → Inside test.region q) ∧
  Exceeds (X.square P.threshold) (distance2 X valid test p p) ∧
  ∀ q, Inside test.region q → Near P.radius p q → ¬ Within (X.square P.threshold) (distance2 X valid test p q)

/-- Within the radius, `q` is a place of the test image with a value at the smallest distance from the value of the valid image at `p`. -/
def Closest (X : PixelType V R O K) (radius : Nat) (valid test : Image V) (p q : Index) : Prop :=
  Inside test.region q ∧ Near radius p q ∧ ∃ y, distance2 X valid test p q = some y ∧
    ∀ q' y', Inside test.region q' → Near radius p q' → distance2 X valid test p q' = some y' → y ≤ y'

end

/-- Each pixel of the region is visited exactly once, whatever thread does it and in whatever order. -/
def Covers {O : Type} (T : Threads O) (r : Region) : Prop :=
  (T.sched.map Prod.snd).Perm r.pixels ∧ ∀ e ∈ T.sched, e.1 < T.n

end Verif.Itk.Any.Spec
