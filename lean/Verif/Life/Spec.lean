/-!
# Lifetimes of objects, independently of the code
-/

namespace Verif.Life.Spec

/-- What happens to an object on the heap: `new`, any access, `delete`.  Objects are numbered. -/
inductive Ev where
  | create (i : Nat)
  | use (i : Nat)
  | destroy (i : Nat)
  deriving Repr, DecidableEq

/-- What may happen after `before`: a new object is new, and only objects that exist are used and destroyed. -/
def Allowed (before : List Ev) : Ev → Prop
  | .create i => .create i ∉ before
  | .use i => .create i ∈ before ∧ .destroy i ∉ before
  | .destroy i => .create i ∈ before ∧ .destroy i ∉ before

/-- No object is used before it exists or after it was destroyed, and none is destroyed twice. -/
def Valid (log : List Ev) : Prop := ∀ before e after, log = before ++ e :: after → Allowed before e

/-- The object is created and never destroyed. -/
def Leaked (log : List Ev) (i : Nat) : Prop := .create i ∈ log ∧ .destroy i ∉ log

end Verif.Life.Spec
