import Verif.Itk.DataDir
import Verif.Path.Spec

/-!
# Where a file is looked for, independently of the code
-/

namespace Verif.Itk.Spec
open Verif.Path.Spec

/-- `file` is the name of `name` as seen from the directory `dir`. -/
def InDir (dir name file : Str) : Prop :=
  (Absolute name ∧ file = name) ∨ (¬ Absolute name ∧ dir = [] ∧ file = name) ∨
    (¬ Absolute name ∧ dir ≠ [] ∧ ∃ t, Trimmed dir t ∧ file = t ++ 47 :: name)

/-- A regular file is there. -/
def HasFile (fs : Path.FileSys) (file : Str) : Prop := fs.stat (cstr file) = some .regular

/-- The file that is read when `name` is asked for: in the first directory that has a regular file of that name; if no directory has, the attempt is made in the
last one; without directories, the name itself. -/
inductive LookedUp (fs : Path.FileSys) (name : Str) : List Str → Str → Prop
  | asIs : LookedUp fs name [] name
  | here (d : Str) (ds : List Str) (file : Str) : InDir d name file → HasFile fs file → LookedUp fs name (d :: ds) file
  | last (d file : Str) : InDir d name file → LookedUp fs name [d] file
  | next (d d' : Str) (ds : List Str) (other file : Str) : InDir d name other → ¬ HasFile fs other → LookedUp fs name (d' :: ds) file →
      LookedUp fs name (d :: d' :: ds) file

end Verif.Itk.Spec
