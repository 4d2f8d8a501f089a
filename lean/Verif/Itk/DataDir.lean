import Verif.Regression.ArgsProps

/-!
# Model of the constructor of `itk::Regression`, itktfRegression.cxx:18-27
-/

namespace Verif.Itk
open Verif.Regression

/-- The object as constructed: on top of the base class (tfRegressionTest.cpp:58-64) the data directory `ITK_REGRESSION_DATA_BASELINE` is put in front of the search
path, itktfRegression.cxx:20-22, and the tolerances for images are off, itktfRegression.cxx:24, 33-36.  The count of file names (itktfRegression.cxx:26) is in `Names`. -/
def itkObject (dataDir : Str) : Obj :=
  let o : Obj := {}
  { o with searchPath := dataDir :: o.searchPath, imageTol := ⟨0, 0, 0⟩ }

end Verif.Itk
