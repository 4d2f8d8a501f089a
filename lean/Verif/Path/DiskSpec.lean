import Verif.Path.Model

/-!
# Path name resolution

What the operating system does with a path name (POSIX.1, "Pathname resolution"), for an arbitrary file system: the nodes are of any type, looking a name up
in a directory may follow symbolic links and cross mount points, and fails if the name does not exist or the search is not permitted.
-/

namespace Verif.Path.Spec
open Verif.Path (Kind)

/-- A file system. -/
structure Disk (N : Type) where
  /-- the root directory -/
  root : N
  kind : N → Kind
  /-- the file a directory entry leads to -/
  lookup : N → Str → Option N
  /-- the names in a directory, as `readdir` delivers them -/
  entries : N → List Str
  /-- may the directory be opened for reading its names? -/
  listable : N → Bool
  /-- may the directory become the current one? -/
  enterable : N → Bool
  /-- the absolute name of a directory, if there is one -/
  nameOf : N → Option Str

/-- The parts of a path between the slashes. -/
def parts : Str → List Str
  | [] => [[]]
  | c :: r => if c = 47 then [] :: parts r else match parts r with
    | [] => [[c]]
    | p :: ps => (c :: p) :: ps

/-- Follow the parts of a path from a node; an empty part (two slashes, or one at the end) asks for a directory. -/
def Disk.walk {N : Type} (d : Disk N) : N → List Str → Option N
  | n, [] => some n
  | n, p :: ps =>
    if p = [] then (if d.kind n = .directory then d.walk n ps else none)
    else (d.lookup n p).bind fun m => d.walk m ps

/-- The file a path name leads to, for a process whose current directory is `cwd`; none for the empty name. -/
def Disk.resolve {N : Type} (d : Disk N) (cwd : N) (path : Str) : Option N :=
  if path = [] then none
  else if path.head? = some 47 then d.walk d.root (parts path.tail)
  else d.walk cwd (parts path)

/-- What every file system satisfies. -/
structure Disk.WellFormed {N : Type} (d : Disk N) : Prop where
  root_dir : d.kind d.root = .directory
  /-- only directories have entries -/
  lookup_dir : ∀ n p m, d.lookup n p = some m → d.kind n = .directory
  /-- `.` is the directory itself, if anything can be looked up in it -/
  lookup_dot : ∀ n p m, d.lookup n p = some m → d.lookup n b!"." = some n
  /-- the names in a directory are names: not empty, without slash and NUL -/
  entry_name : ∀ n, ∀ e ∈ d.entries n, e ≠ [] ∧ 47 ∉ e ∧ 0 ∉ e
  /-- what can be looked up is in the directory -/
  lookup_entry : ∀ n p m, p ≠ [] → d.lookup n p = some m → p ∈ d.entries n

end Verif.Path.Spec
