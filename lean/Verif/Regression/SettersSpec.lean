import Verif.Regression.Model

/-!
# The setters of a test object, called before `Main`
-/

namespace Verif.Regression.Spec
open Verif.Regression

/-- A call of a setter, tfRegressionTest.cpp:76-107. -/
inductive Setter where
  /-- `SetExpectedReturn` -/
  | expectedReturn (v : Int)
  /-- `PrependInFileSearchPath` -/
  | prependPath (p : Str)
  /-- `SetInFileName` -/
  | inFile (n : Str)
  /-- `SetOutFileName` -/
  | outFile (n : Str)

/-- What the call does to the object: `SetExpectedReturn` tfRegressionTest.cpp:105-107, `PrependInFileSearchPath` :76-78, `SetInFileName` :84-86, `SetOutFileName` :93-95. -/
def Setter.on : Setter → Obj → Obj
  | .expectedReturn v, o => { o with expected := v }
  | .prependPath p, o => { o with searchPath := p :: o.searchPath }
  | .inFile n, o => { o with inFileName := n }
  | .outFile n, o => { o with outFileName := n }

/-- The call that stands for an option with its value. -/
def setterFor (p : Str × Str) : Option Setter :=
  if p.1 = b!"-R" then some (.expectedReturn (strtolInt p.2))
  else if p.1 = b!"-P" then some (.prependPath p.2)
  else if p.1 = b!"-I" then some (.inFile p.2)
  else if p.1 = b!"-O" then some (.outFile p.2)
  else none

/-- The object after the calls, in order. -/
def afterSetters (cs : List Setter) (o : Obj) : Obj := cs.foldl (fun o c => c.on o) o

end Verif.Regression.Spec
