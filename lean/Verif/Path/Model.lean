import Verif.CString

/-!
# Model of `FileUtilities/PathName.cpp` and `FileUtilities/FileUtilities.cpp` (POSIX branches)

A `PathName` is its string; the stat cache members are never read by any code (PathName.cpp:327-332)
and are left out.  The file system is a parameter.
-/

namespace Verif.Path

/-- What `stat` can tell about an existing file. -/
inductive Kind where
  | regular | directory | other
  deriving DecidableEq, Repr

/-- The file system as the process sees it at one moment: `stat` and `access`. -/
structure FileSys where
  stat : Str → Option Kind
  canRead : Str → Bool
  canWrite : Str → Bool
  canExec : Str → Bool

/-- `'/'` -/
abbrev slash : UInt8 := 47
/-- `'.'` -/
abbrev dot : UInt8 := 46
/-- `':'` -/
abbrev colon : UInt8 := 58

/-- `GetPathType() == Absolute`, PathName.cpp:157-187. -/
def isAbsolute (p : Str) : Bool :=
  if p.length == 0 then false else p[0]? == some slash

/-- The loop `while (i && path[i] == '/') --i;`, PathName.cpp:147-148. -/
def trimIndex (path : Str) : Nat → Nat
  | 0 => 0
  | i + 1 => if path[i + 1]? = some slash then trimIndex path i else i + 1

/-- `std::string::erase(pos, n)` for `pos ≤ size()`. -/
def erase (s : Str) (pos n : Nat) : Str := s.take pos ++ s.drop (pos + n)

/-- `PathName::Append`, PathName.cpp:129-154. -/
def append (this f : Str) : Str :=
  if isAbsolute f || this.length == 0 then f
  else
    let i := trimIndex this (this.length - 1)
    let path := erase this (i + 1) (this.length - i - 1)
    path ++ [slash] ++ f

/-- `PathName::DirectoryName`, PathName.cpp:189-202. -/
def directoryName (path : Str) : Except Fault Str :=
  match rfind slash path with
  | none => .ok [dot]
  | some 0 => .ok [dot]
  | some i => substr path 0 i

/-- `PathName::Tail`, PathName.cpp:205-221. -/
def tail (path : Str) : Except Fault Str :=
  if path.length == 0 then .ok []
  else match rfindBelow slash path (path.length - 1 + 1) with
    | none => .ok path
    | some i => substr path (i + 1) (path.length - i - 1)

/-- `PathName::Extension`, PathName.cpp:224-231. -/
def extension (path : Str) : Except Fault Str := do
  let t ← tail path
  match rfind dot t with
  | none => return []
  | some i => substr t (i + 1) (t.length - i - 1)

/-- `PathName::IsFile`, PathName.cpp:253-264. -/
def isFile (fs : FileSys) (p : Str) : Bool := fs.stat (cstr p) == some .regular

/-- `PathName::IsDirectory`, PathName.cpp:267-277. -/
def isDirectory (fs : FileSys) (p : Str) : Bool := fs.stat (cstr p) == some .directory

/-- `PathName::Exists`, PathName.cpp:279-282. -/
def pathExists (fs : FileSys) (p : Str) : Bool := (fs.stat (cstr p)).isSome

/-- `PathName::IsWritable`, PathName.cpp:233-238. -/
def isWritable (fs : FileSys) (p : Str) : Bool :=
  fs.canWrite (cstr p) && (!isDirectory fs p || fs.canExec (cstr p))

/-- `PathName::IsReadable`, PathName.cpp:240-245. -/
def isReadable (fs : FileSys) (p : Str) : Bool :=
  fs.canRead (cstr p) && (!isDirectory fs p || fs.canExec (cstr p))

/-- `PathName::IsExecutable`, PathName.cpp:248-251. -/
def isExecutable (fs : FileSys) (p : Str) : Bool := fs.canExec (cstr p)

/-- The loop of `PathName::SearchPathList`, PathName.cpp:290-297; the last argument is `fullFileName`. -/
def searchLoop (fs : FileSys) (name : Str) : List Str → Str → Str
  | [], full => full
  | p :: ps, _ =>
    let full := append p name
    if isFile fs full then full else searchLoop fs name ps full

/-- `PathName::SearchPathList`, PathName.cpp:287-298. -/
def searchPathList (fs : FileSys) (name : Str) (pathList : List Str) : Str :=
  searchLoop fs name pathList []

/-- The loop of `GetPathListFromColonSeparatedList`, FileUtilities.cpp:72-83: `j` is the start of the
next element.  The fuel stands for the number of iterations still allowed. -/
def colonLoop (value : Str) : Nat → Nat → Except Fault (List Str)
  | 0, _ => .error .fuel
  | fuel + 1, j =>
    match find colon value j with
    | none => do
      let e ← substr value j (value.length - j)
      return [e]
    | some i => do
      let e ← substr value j (i - j)
      let r ← colonLoop value fuel (i + 1)
      return e :: r

/-- `GetPathListFromColonSeparatedList`, FileUtilities.cpp:66-86. -/
def colonList (value : Str) : Except Fault (List Str) :=
  if value = [] then .ok [] else colonLoop value (value.length + 1) 0

/-- `GetPathFromEnviroment`, FileUtilities.cpp:57-64; `env` is the process environment. -/
def pathFromEnvironment (env : Str → Option Str) (name : Str) : Except Fault (List Str) :=
  match env (cstr name) with
  | none => .ok []
  | some v => colonList (cstr v)

/-- `SetCurrentDirectory`, FileUtilities.cpp:89-93; `chdirOk` is the success of the system call. -/
def setCurrentDirectory (fs : FileSys) (chdirOk : Str → Bool) (p : Str) : Except Fault Bool :=
  if isDirectory fs p then .ok (chdirOk (cstr p)) else .error (.thrown "is not a directory.")

end Verif.Path
