import Verif.Whole.Spec

/-!
# Tests that set tolerances between their measurements
-/

namespace Verif.Whole.Spec

/-- What a test does: it sets the tolerance of its object, or it measures a value. -/
inductive Step where
  | tolerance (t : ℚ)
  | measure (x : Item)

/-- The measurements with the tolerance set last before each; `tol` is the one at the beginning. -/
def inForce : ℚ → List Step → List (ℚ × Item)
  | _, [] => []
  | _, .tolerance t :: l => inForce t l
  | tol, .measure x :: l => (tol, x) :: inForce tol l

open Classical in
/-- The number of measurements of the second list that are not related, with their tolerance, to the measurement at their position in the first. -/
noncomputable def unlikeAt (R : ℚ → Item → Item → Prop) : List Item → List (ℚ × Item) → Nat
  | _, [] => 0
  | [], _ :: ys => 1 + unlikeAt R [] ys
  | x :: xs, (t, y) :: ys => (if R t x y then 0 else 1) + unlikeAt R xs ys

end Verif.Whole.Spec
