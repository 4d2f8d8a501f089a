import Verif.Itk.AnyPixel

/-!
# The other forms of `CompareImage`

`CompareImage` of two files, itktfRegression.h:199-220, and of two images with a region and without tolerances, itktfRegression.h:240-244, for any type of pixels.
-/

namespace Verif.Itk.Any

section
variable {V R O K : Type} [LinearOrder K] (X : PixelType V R O K)

/-- `CompareImage<ImageType>` of two files, itktfRegression.h:200-220; `read` is ITK's reader for images of this type (`none`: it throws an `itk::ExceptionObject`,
which is not caught).  The test image is read first. -/
def compareFiles (read : Str → Option (Image V)) (T : Threads O) (testName baselineName : Str) (intensity : Option K) (pixels radius : Nat) : Except Fault Nat :=
  match read testName with
  | none => .error (.thrown "itk::ExceptionObject")
  | some test =>
    match read baselineName with
    | none => .error (.thrown "itk::ExceptionObject")
    | some baseline => compareImage X T test baseline intensity pixels radius (Region.default test.region.length)

/-- `CompareImage<ImageType>` of two images and a region, itktfRegression.h:241-244: no tolerances. -/
def compareRegion (T : Threads O) (test baseline : Image V) (region : Region) : Except Fault Nat :=
  compareImage X T test baseline X.noMagnitude 0 0 region

end

end Verif.Itk.Any
