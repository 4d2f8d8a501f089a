import Verif.Prelude

/-!
# Vocabulary for path names, independently of the code
-/

namespace Verif.Path.Spec

/-- A path is absolute when it begins with a slash. -/
def Absolute (p : Str) : Prop := ∃ r, p = 47 :: r

/-- `t` is `p` without its trailing slashes, where the first character always stays. -/
def Trimmed (p t : Str) : Prop :=
  ∃ n, p = t ++ List.replicate n 47 ∧ t ≠ [] ∧ (t.getLast? = some 47 → t.length = 1)

/-- Joining with colons. -/
def join : List Str → Str
  | [] => []
  | [x] => x
  | x :: y :: r => x ++ 58 :: join (y :: r)

end Verif.Path.Spec
