import Verif.Prelude

/-!
# Lists compared position by position
-/

namespace Verif.Whole.Spec

/-- The number of positions of the second list at which the first does not have the same. -/
def differing (as bs : List Str) : Nat := ((List.range bs.length).filter fun i => as[i]? ≠ bs[i]?).length

end Verif.Whole.Spec
