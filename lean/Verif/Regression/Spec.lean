import Verif.Path.Model

/-!
# Vocabulary for the command line, independently of the parser
-/

namespace Verif.Regression.Spec

/-- The options the framework knows. -/
def IsOption (s : Str) : Prop := s = b!"-O" ∨ s = b!"-I" ∨ s = b!"-R" ∨ s = b!"-P"

/-- A command line made of option/value pairs. -/
def flat : List (Str × Str) → List Str
  | [] => []
  | (o, v) :: r => o :: v :: flat r

/-- The value of the last pair with the given option. -/
def lastValue (opt : Str) (ps : List (Str × Str)) : Option Str :=
  ((ps.filter fun p => p.1 = opt).map (·.2)).getLast?

/-- The values of all pairs with the given option, in order. -/
def values (opt : Str) (ps : List (Str × Str)) : List Str := (ps.filter fun p => p.1 = opt).map (·.2)

/-- A pair whose value the framework refuses: an input that is no readable file, a search path that is no readable
directory. -/
def Refused (fs : Path.FileSys) (p : Str × Str) : Prop :=
  (p.1 = b!"-I" ∧ ¬ (Path.isFile fs p.2 = true ∧ Path.isReadable fs p.2 = true)) ∨
  (p.1 = b!"-P" ∧ ¬ (Path.isDirectory fs p.2 = true ∧ Path.isReadable fs p.2 = true))

/-- The command line ends the options: nothing is left, or an argument that is no option. -/
def Stops (rest : List Str) : Prop := ∀ x ∈ rest.head?, ¬ IsOption x

end Verif.Regression.Spec
