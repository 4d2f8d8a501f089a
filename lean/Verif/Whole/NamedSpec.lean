import Verif.Whole.LateSpec
import Verif.Xml.RunSpec

/-!
# Tests that name their baseline themselves
-/

namespace Verif.Whole.Spec
open Verif.Regression Verif.Regression.Spec Verif.Xml Verif.Xml.Spec Verif.Measurement

/-- The lines for measurements that are recorded. -/
def recordedLines (cs : List Call) : Str := cs.flatMap fun c => line (recordedMeas c)

/-- The lines for measurements for which the baseline has nothing. -/
def unmatchedLines (cs : List Call) : Str := cs.flatMap fun c => line (c.meas.setName (b!"Unmatched " ++ c.meas.name))

end Verif.Whole.Spec
