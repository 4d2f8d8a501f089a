import Verif.Regression.CompareSpec

/-!
# What the names, the compound measurements and the image comparison program are expected to do
-/

namespace Verif.Itk.Spec
open Verif.Regression

/-- What an argument list for the image comparison means: images with the tolerances in force when they were named. -/
inductive Reads (real : Str → Option ℚ) (unsigned : Str → Option Nat) : ImgTol → List Str → List (ImgTol × Str) → Prop
  | done (t) : Reads real unsigned t [] []
  | intensity (t v x rest l) : real v = some x → Reads real unsigned { t with intensity := x } rest l →
      Reads real unsigned t (b!"--intensityTolerance" :: v :: rest) l
  | pixels (t v x rest l) : unsigned v = some x → Reads real unsigned { t with pixels := x } rest l →
      Reads real unsigned t (b!"--numberOfPixelTolerance" :: v :: rest) l
  | radius (t v x rest l) : unsigned v = some x → Reads real unsigned { t with radius := x } rest l →
      Reads real unsigned t (b!"--radiusTolerance" :: v :: rest) l
  | image (t a rest l) : a.head? ≠ some 45 → Reads real unsigned t rest l → Reads real unsigned t (a :: rest) ((t, a) :: l)

/-- Measurement calls one after the other, and the sum of what they return. -/
def runCalls (env : Env) : List Call → St → Res Int
  | [], s => (s, .ok 0)
  | c :: cs, s =>
    match runCall env s c with
    | (s, .error f) => (s, .error f)
    | (s, .ok r) => match runCalls env cs s with
      | (s, .error f) => (s, .error f)
      | (s, .ok q) => (s, .ok (r + q))

/-- One call per element, numbered from 0. -/
def perElement {α : Type} (call : α → Str → Call) (name : Str) (values : List α) : List Call :=
  values.zipIdx.map fun (v, i) => call v (name ++ b!"_" ++ Measurement.natText i)

/-- One call per entry, row by row, with the numbers of row and column. -/
def perEntry {α : Type} (call : α → Str → Call) (name : Str) (rows : List (List α)) : List Call :=
  rows.zipIdx.flatMap fun (row, i) => row.zipIdx.map fun (v, j) =>
    call v (name ++ b!"_" ++ Measurement.natText i ++ b!"_" ++ Measurement.natText j)

end Verif.Itk.Spec
