import Verif.Regression.Model

/-!
# Tests that have nothing to do with the output file
-/

namespace Verif.Parallel.Spec
open Verif.Regression

/-- Two worlds that differ at most in the content of one file. -/
def SameBut (f : Str) (w w' : World) : Prop :=
  w.fs = w'.fs ∧ w.creatable = w'.creatable ∧ w.cout = w'.cout ∧ w.host = w'.host ∧ w.time = w'.time ∧ ∀ m, m ≠ cstr f → w.bytes m = w'.bytes m

/-- A test that neither looks at the content of the file nor changes it, and does not choose a baseline. -/
def Ignores (f : Str) : Prog → Prop
  | .ret _ => True
  | .fails _ => True
  | .call _ k => ∀ r, Ignores f (k r)
  | .act a k => ((∀ w, (a w).bytes (cstr f) = w.bytes (cstr f)) ∧ ∀ w w', SameBut f w w' → SameBut f (a w) (a w')) ∧ Ignores f k
  | .look k => (∀ w w', SameBut f w w' → k w = k w') ∧ ∀ w, Ignores f (k w)
  | .ask k => ∀ s, Ignores f (k s)
  | .setTolerance _ k => Ignores f k
  | .setExpected _ k => Ignores f k
  | .setImageTolerance _ k => Ignores f k
  | .setSearchPath _ k => Ignores f k
  | .prependSearchPath _ k => Ignores f k
  | .setInFileName n k => n = [] ∧ Ignores f k
  | .setOutFileName _ k => Ignores f k

end Verif.Parallel.Spec
