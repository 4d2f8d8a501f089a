import Verif.Itk.Names
import Verif.Itk.Visitor
import Verif.Itk.DataDir

/-!
# Model of the program `itktfImageCompare`
-/

namespace Verif.Itk
open Verif.Regression

/-- The program, itktfImageCompare.cxx:116-120: a test object as constructed (`dataDir` is `ITK_REGRESSION_DATA_BASELINE`) and its `Main`.  The message on how to use it that is
written to standard error without arguments (itktfImageCompare.cxx:11-19) is left out. -/
def imageCompare (env : Env) (rd : Readers) (dataDir : Str) (fuel : Nat) (argv : List Str) (w : World) : Res Int :=
  main env (imageTest rd) fuel argv ⟨itkObject dataDir, w⟩

end Verif.Itk
