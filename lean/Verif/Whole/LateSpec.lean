import Verif.Whole.MixSpec

/-!
# Tests that change what their object expects and where it looks, after they have measured
-/

namespace Verif.Whole.Spec
open Verif.Regression
open Verif.Itk.Spec (LookedUp)

/-- What a test sets at its end, and what it returns. -/
structure Ending where
  searchPath : Option (List Str) := none
  baseline : Option Str := none
  expected : Option Int := none
  value : Int := 0

/-- A name is given, and the file that is looked up for it can be read. -/
def CanBeRead (w : World) (name : Str) (dirs : List Str) : Prop :=
  name ≠ [] ∧ ∃ place bytes, LookedUp w.fs name dirs place ∧ w.openRead place = some bytes

end Verif.Whole.Spec
