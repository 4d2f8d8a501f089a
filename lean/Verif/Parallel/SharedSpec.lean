import Verif.Parallel.Model
import Verif.Regression.Spec

/-!
# Recordings to one file
-/

namespace Verif.Parallel.Spec
open Verif.Regression Verif.Regression.Spec

/-- A test that makes measurements and looks at and changes settings, but has nothing to do with files otherwise and chooses no baseline. -/
def Measures : Prog → Prop
  | .ret _ => True
  | .fails _ => True
  | .call _ k => ∀ r, Measures (k r)
  | .act _ _ => False
  | .look _ => False
  | .ask k => ∀ s, Measures (k s)
  | .setTolerance _ k => Measures k
  | .setExpected _ k => Measures k
  | .setImageTolerance _ k => Measures k
  | .setSearchPath _ k => Measures k
  | .prependSearchPath _ k => Measures k
  | .setInFileName n k => n = [] ∧ Measures k
  | .setOutFileName _ k => Measures k

/-- The file can be written: it is a regular file with permission, or there is none and it can be created. -/
def CanBeOutput (g : Files) (f : Str) : Prop :=
  (g.fs.stat (cstr f) = none ∨ g.fs.stat (cstr f) = some .regular) ∧ g.fs.canWrite (cstr f) = true ∧ g.creatable (cstr f) = true

/-- A run that is told, by options it accepts, to record to the file, and whose test only measures. -/
def Records (g : Files) (f : Str) (x : Start) : Prop :=
  ∃ prog ps args, x.argv = prog :: (flat ps ++ args) ∧ (∀ p ∈ ps, IsOption p.1) ∧ (∀ p ∈ ps, ¬ Refused g.fs p) ∧ Stops args ∧ ps.length < x.fuel ∧
    lastValue b!"-I" ps = none ∧ lastValue b!"-O" ps = some f ∧ x.obj.os = none ∧ x.obj.is = none ∧ x.obj.inFileName = [] ∧ Measures (x.test (prog :: args))

/-- What a run leaves in the file if it is alone. -/
def document (g : Files) (f : Str) (x : Start) : Str := (main x.env x.test x.fuel x.argv (x.state g)).1.world.bytes (cstr f)

/-- What a run returns if it is alone. -/
def result (g : Files) (x : Start) : Except Fault Int := (main x.env x.test x.fuel x.argv (x.state g)).2

end Verif.Parallel.Spec
