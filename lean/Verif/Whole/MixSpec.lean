import Verif.Whole.StepsSpec
import Verif.Whole.FilesSpec

/-!
# Tests that measure values and files and set tolerances
-/

namespace Verif.Whole.Spec
open Verif.Regression Verif.Xml.Spec
open Verif.Itk.Spec (LookedUp LastComponent)

/-- What is measured: a value, or a file. -/
inductive Thing where
  | value (x : Item)
  | file (x : FileItem)

/-- What a test does. -/
inductive Act where
  | tolerance (t : ℚ)
  | measure (x : Thing)

def Thing.Valid : Thing → Prop
  | .value x => x.Valid
  | .file x => x.Valid

def Thing.name : Thing → Str
  | .value x => x.name
  | .file x => x.name

/-- The measurements with the tolerance set last before each; `tol` is the one at the beginning. -/
def underWay : ℚ → List Act → List (ℚ × Thing)
  | _, [] => []
  | _, .tolerance t :: l => underWay t l
  | tol, .measure x :: l => (tol, x) :: underWay tol l

/-- When the measurement of the second thing is to be accepted for the recorded measurement of the first, given what is known (`V`) of values: texts may be recorded as values and measured as files, and the other
way round.  The file of a text that is measured as a value is looked for in the current directory only. -/
def Takes (V : ℚ → Item → Item → Prop) (w : World) (dirs : List Str) (tol : ℚ) : Thing → Thing → Prop
  | .value x, .value y => V tol x y
  | .file x, .file y => SameText w dirs x y
  | .value x, .file y => x.name = y.name ∧ y.kind = .text ∧ ∃ a, x.value = .plain a ∧ w.openRead y.path = some a
  | .file x, .value y => x.name = y.name ∧ x.kind = .text ∧ ∃ a last, y.value = .plain a ∧ LastComponent x.path last ∧ w.openRead last = some a

open Classical in
/-- The number of measurements of the second list that are not related, with their tolerance, to the measurement at their position in the first. -/
noncomputable def refusals (R : ℚ → Thing → Thing → Prop) : List Thing → List (ℚ × Thing) → Nat
  | _, [] => 0
  | [], _ :: ys => 1 + refusals R [] ys
  | x :: xs, (t, y) :: ys => (if R t x y then 0 else 1) + refusals R xs ys

/-- The text in the element that records the measurement of a plain text: the text, or the last component of the name of the file. -/
def Recorded : Thing → Str → Prop
  | .value x, a => x.value = .plain a
  | .file x, a => x.kind = .text ∧ LastComponent x.path a

end Verif.Whole.Spec
