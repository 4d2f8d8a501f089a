import Mathlib.Algebra.Order.Field.Rat
import Mathlib.Algebra.Order.Ring.Abs

/-!
# Vocabulary for comparisons, independently of the code
-/

namespace Verif.Measurement.Spec

/-- "Close with tolerance e", the relation documented at tfMeasurement.h:431-434. -/
def Close (e u v : ℚ) : Prop := |u - v| ≤ e * |u| ∨ |u - v| ≤ e * |v|

/-- The documented answer of a tolerant comparison with relative tolerance `e` for a type whose epsilon is `eps`. -/
def Accept (eps e u v : ℚ) : Prop := Close e u v ∨ (|u| < eps ∧ |v| < eps)

end Verif.Measurement.Spec
