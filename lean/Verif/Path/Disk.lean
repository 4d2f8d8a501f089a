import Verif.Path.DiskSpec

/-!
# `FileUtilities.cpp` and `PathName::SearchDirectory` on a file system, with the current directory as state
-/

namespace Verif.Path
open Spec

variable {N : Type}

/-- What `stat` and `access` tell a process whose current directory is `cwd`; the permissions belong to the files. -/
def fileSys (d : Disk N) (r w x : N → Bool) (cwd : N) : FileSys where
  stat := fun p => (d.resolve cwd p).map d.kind
  canRead := fun p => ((d.resolve cwd p).map r).getD false
  canWrite := fun p => ((d.resolve cwd p).map w).getD false
  canExec := fun p => ((d.resolve cwd p).map x).getD false

/-- `stat` alone. -/
def statOnly (d : Disk N) (cwd : N) : FileSys := fileSys d (fun _ => false) (fun _ => false) (fun _ => false) cwd

/-- The system call `chdir`: the new current directory, and whether it succeeded. -/
def chdir (d : Disk N) (cwd : N) (p : Str) : N × Bool :=
  match d.resolve cwd p with
  | none => (cwd, false)
  | some n => if d.kind n = .directory ∧ d.enterable n = true then (n, true) else (cwd, false)

/-- `SetCurrentDirectory`, FileUtilities.cpp:89-93. -/
def setCwd (d : Disk N) (cwd : N) (p : Str) : N × Except Fault Bool :=
  if isDirectory (statOnly d cwd) p then ((chdir d cwd (cstr p)).1, .ok (chdir d cwd (cstr p)).2)
  else (cwd, .error (.thrown "is not a directory."))

/-- The size of the buffer, FileUtilities.cpp:51. -/
def maxPath : Nat := 1024

/-- `GetCurrentDirectory`, FileUtilities.cpp:95-105.  `getcwd` fails if there is no name or if the name and its NUL do not fit in the buffer; its result is not
looked at, and the buffer, which was not initialised, is read. -/
def getCwd (d : Disk N) (cwd : N) : Except Fault Str :=
  if ((statOnly d cwd).stat b!".").isSome then
    match d.nameOf cwd with
    | none => .error (.ub "uninitialised buffer")
    | some s => if s.length + 1 ≤ maxPath then .ok s else .error (.ub "uninitialised buffer")
  else .ok []

/-- `PathName::SearchDirectory`, PathName.cpp:301-323. -/
def searchDirectory (d : Disk N) (cwd : N) (p : Str) : List Str :=
  if !isDirectory (statOnly d cwd) p then []
  else match d.resolve cwd (cstr p) with
    | none => []
    | some n => if d.listable n then d.entries n else []

end Verif.Path
