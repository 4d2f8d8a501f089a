import Verif.Stderr.Programs
import Verif.Itk.NamesSpec

/-!
# What the programs are expected to say
-/

namespace Verif.Stderr.Spec
open Verif.Measurement Verif.Regression Verif.Itk Verif.Itk.Spec Verif.Pipe

/-- Why there is no exit value of the command. -/
def whyNot (exception error : Str) : EndState → Option Str
  | .exited _ => none
  | .starting => some b!"No process has been executed."
  | .executing => some b!"The process is still executing."
  | .expired => some b!"Child was killed when timeout expired."
  | .killed => some b!"Child was killed by parent."
  | .exception => some (b!"Child terminated abnormally: " ++ cstr exception)
  | .disowned => some b!"Child was disowned."
  | .error => some (b!"Error in administrating child process: [" ++ cstr error ++ b!"]")

/-- The images of the list, with the tolerances in force, are measured as "ImageFile" `n`, `n` + 1 and so on; then the test goes on with `k`. -/
def imagesThen (k : Talk) : Nat → List (ImgTol × Str) → Talk
  | _, [] => k
  | n, (t, file) :: l => .setImageTolerance t (.call (.fileITK file (b!"ImageFile" ++ natText n)) fun _ => imagesThen k (n + 1) l)

/-- The kind of value an option takes. -/
def valueKind (option : Str) : Option Str :=
  if option = b!"--intensityTolerance" then some b!"double"
  else if option = b!"--numberOfPixelTolerance" ∨ option = b!"--radiusTolerance" then some b!"unsigned int"
  else none

/-- What is wrong with the first of the arguments: an option without a value, one with a value that cannot be read, or one that is unknown. -/
inductive Wrong (real : Str → Option ℚ) (unsigned : Str → Option Nat) : List Str → Str → Prop
  | missing (o kind) : valueKind o = some kind → Wrong real unsigned [o] (b!"Expected " ++ kind ++ b!" to follow " ++ o)
  | real (o v rest) : valueKind o = some b!"double" → real v = none →
      Wrong real unsigned (o :: v :: rest) (b!"Expected double to follow " ++ o ++ b!" but got \"" ++ v ++ b!"\"")
  | unsigned (o v rest) : valueKind o = some b!"unsigned int" → unsigned v = none →
      Wrong real unsigned (o :: v :: rest) (b!"Expected unsigned int to follow " ++ o ++ b!" but got \"" ++ v ++ b!"\"")
  | unknown (o rest) : o.head? = some 45 → valueKind o = none → Wrong real unsigned (o :: rest) (b!"Unknown argument: \"" ++ o ++ b!"\"")

/-- The usage. -/
def usage (program : Str) : List Str :=
  [b!"Usage: \n", b!"\t" ++ program ++ b!" ( filename | --intensityTolerance real | --numberOfPixelTolerance uint | --radiusTolerance uint )*\n", b!"\n", usageText]

end Verif.Stderr.Spec
