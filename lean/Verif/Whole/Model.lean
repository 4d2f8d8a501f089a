import Verif.Whole.Spec
import Verif.Decimal.Env
import Verif.Diff.Lines
import Verif.Xml.Model

/-!
# The parts put together

`Regression` leaves the numbers, the reading of XML and the difference of texts open; here they are what the other parts of the model say.  What is
left open is the XML parser, and what the memory outside the arrays of `Diff` holds.
-/

namespace Verif.Whole
open Verif.Regression Verif.Xml Spec

/-- The program with its libraries: IEEE 754 numbers, the reading loop of tfRegressionTest.cpp:613-804 on an XML parser, and tfDiff.cpp (with an amount of
steps for its loops). -/
def whole (X : Expat) (mem : (Int → Nat) × (Int → Nat)) (steps : Nat) : Env :=
  withXML X { num := Decimal.ieee, readXML := fun _ => .ok [], diff := Diff.diff (some mem) steps }

/-- The measurement function called for a value, tfRegressionTest.h:154-164. -/
def _root_.Verif.Whole.Spec.Item.call (x : Item) : Call :=
  match x.value with
  | .string s => .textString s x.name
  | .plain s => .textPlain s x.name
  | .integer v => .integer v x.name x.tolerant
  | .float q => .float (Decimal.floatText (.ofRat q)) x.name x.tolerant
  | .double q => .double (Decimal.doubleText (.ofRat q)) x.name x.tolerant
  | .boolean b => .boolean b x.name x.tolerant

end Verif.Whole
