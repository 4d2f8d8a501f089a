import Verif.Path.DiskProps

/-!
# What `IsFile`, `IsDirectory`, `Exists`, `IsReadable`, `IsWritable` and `IsExecutable` say (PathName.cpp:233-282)

For every file system, all permissions and every current directory.  The system is asked several times by `IsReadable` and `IsWritable` (`stat`, then `access`);
nothing changes in between here.
-/

namespace Verif.Path
open Spec

variable {N : Type}

/-- **C122.** Every predicate tells about the file the name leads to, from the current directory: `Exists` says that there is one, `IsFile` and `IsDirectory` what
it is, the others what the process may do with it; to be readable or writable a directory has to be searchable, too. -/
theorem C122_predicates (d : Disk N) (r w x : N → Bool) (cwd : N) (p : Str) (hp : 0 ∉ p) :
    (pathExists (fileSys d r w x cwd) p = true ↔ ∃ n, d.resolve cwd p = some n) ∧
    (isFile (fileSys d r w x cwd) p = true ↔ ∃ n, d.resolve cwd p = some n ∧ d.kind n = .regular) ∧
    (isDirectory (fileSys d r w x cwd) p = true ↔ ∃ n, d.resolve cwd p = some n ∧ d.kind n = .directory) ∧
    (isReadable (fileSys d r w x cwd) p = true ↔ ∃ n, d.resolve cwd p = some n ∧ r n = true ∧ (d.kind n = .directory → x n = true)) ∧
    (isWritable (fileSys d r w x cwd) p = true ↔ ∃ n, d.resolve cwd p = some n ∧ w n = true ∧ (d.kind n = .directory → x n = true)) ∧
    (isExecutable (fileSys d r w x cwd) p = true ↔ ∃ n, d.resolve cwd p = some n ∧ x n = true) := by
  simp only [pathExists, isFile, isDirectory, isReadable, isWritable, isExecutable, cstr_noNul hp, fileSys]
  cases h : d.resolve cwd p with
  | none => simp
  | some n => by_cases hk : d.kind n = .directory <;> simp [hk]

/-- **C122.** So nothing is a file and a directory, whatever is one of them or may be used exists, and a name without a file (the empty one is of this kind) has
none of the properties. -/
theorem C122_consistent (d : Disk N) (r w x : N → Bool) (cwd : N) (p : Str) :
    ¬ (isFile (fileSys d r w x cwd) p = true ∧ isDirectory (fileSys d r w x cwd) p = true) ∧
    (isFile (fileSys d r w x cwd) p = true ∨ isDirectory (fileSys d r w x cwd) p = true ∨ isReadable (fileSys d r w x cwd) p = true ∨
      isWritable (fileSys d r w x cwd) p = true ∨ isExecutable (fileSys d r w x cwd) p = true → pathExists (fileSys d r w x cwd) p = true) ∧
    pathExists (fileSys d r w x cwd) [] = false := by
  refine ⟨?_, ?_, rfl⟩ <;>
  · simp only [pathExists, isFile, isDirectory, isReadable, isWritable, isExecutable, fileSys]
    cases h : d.resolve cwd (cstr p) with
    | none => simp
    | some n => simp <;> intro h1 h2 <;> simp [h1] at h2

/-- **C122.** A slash at the end asks for a directory: then the name of a file does not exist any more, and that of a directory stays what it was. -/
theorem C122_trailing_slash (d : Disk N) (wf : d.WellFormed) (r w x : N → Bool) (cwd : N) (p : Str) (hp : 0 ∉ p) (hne : p ≠ []) :
    isFile (fileSys d r w x cwd) (p ++ [47]) = false ∧
    pathExists (fileSys d r w x cwd) (p ++ [47]) = isDirectory (fileSys d r w x cwd) p ∧
    isDirectory (fileSys d r w x cwd) (p ++ [47]) = isDirectory (fileSys d r w x cwd) p := by
  have hp' : 0 ∉ p ++ [47] := by simp [hp]
  have habs : isAbsolute (p ++ [47]) = isAbsolute p := by
    cases p with
    | nil => exact absurd rfl hne
    | cons c t => rfl
  have hres : d.resolve cwd (p ++ [47]) = (d.resolve cwd p).bind fun n => if d.kind n = .directory then some n else none := by
    rw [resolve_eq d wf cwd (p := p ++ [47]) (by simp), resolve_eq d wf cwd hne, habs, show ([47] : Str) = 47 :: [] from rfl, parts_slash, walk_append]
    refine congrArg (Option.bind _) ?_
    funext n
    by_cases hk : d.kind n = .directory <;> simp [parts, Disk.walk]
  simp only [pathExists, isFile, isDirectory, cstr_noNul hp, cstr_noNul hp', fileSys, hres]
  cases h : d.resolve cwd p with
  | none => simp
  | some n => by_cases hk : d.kind n = .directory <;> simp [hk]

/-- **C122.** What follows a NUL in a path name is not looked at. -/
theorem C122_nul (fs : FileSys) (p q : Str) (hp : 0 ∉ p) :
    pathExists fs (p ++ 0 :: q) = pathExists fs p ∧ isFile fs (p ++ 0 :: q) = isFile fs p ∧ isDirectory fs (p ++ 0 :: q) = isDirectory fs p ∧
    isReadable fs (p ++ 0 :: q) = isReadable fs p ∧ isWritable fs (p ++ 0 :: q) = isWritable fs p ∧ isExecutable fs (p ++ 0 :: q) = isExecutable fs p := by
  have h : cstr (p ++ 0 :: q) = cstr p := by
    induction p with
    | nil => rfl
    | cons c t ih =>
      have hc : c ≠ 0 := fun e => hp (by simp [e])
      have := ih (fun e => hp (by simp [e]))
      simp only [cstr, List.cons_append, List.takeWhile_cons] at this ⊢
      rw [if_pos (by simp [hc]), if_pos (by simp [hc]), this]
  simp only [pathExists, isFile, isDirectory, isReadable, isWritable, isExecutable, h, and_self]

/-- **C122.** `SetCurrentDirectory` throws exactly if the name does not lead to a directory, and then the current directory stays; otherwise it returns whether the
directory may be entered, and the current directory is the new one if so and the old one if not. -/
theorem C122_set_current_directory (d : Disk N) (cwd : N) (p : Str) (hp : 0 ∉ p) :
    ((∃ n, d.resolve cwd p = some n ∧ d.kind n = .directory) → ∃ n, d.resolve cwd p = some n ∧
      setCwd d cwd p = (if d.enterable n = true then n else cwd, .ok (d.enterable n))) ∧
    ((¬ ∃ n, d.resolve cwd p = some n ∧ d.kind n = .directory) → ∃ m, setCwd d cwd p = (cwd, .error (.thrown m))) := by
  have hdir := (C122_predicates d (fun _ => false) (fun _ => false) (fun _ => false) cwd p hp).2.2.1
  rw [show fileSys d (fun _ => false) (fun _ => false) (fun _ => false) cwd = statOnly d cwd from rfl] at hdir
  constructor
  · rintro ⟨n, h, hk⟩
    refine ⟨n, h, ?_⟩
    rw [setCwd, if_pos (hdir.2 ⟨n, h, hk⟩), chdir, cstr_noNul hp, h]
    cases he : d.enterable n <;> simp [hk, he]
  · intro h
    exact ⟨_, if_neg fun e => h (hdir.1 e)⟩

/-- **C122.** The two models of `SetCurrentDirectory` (with the system call as a parameter, and on a disk) agree. -/
theorem C122_same_model (d : Disk N) (cwd : N) (p : Str) :
    (setCwd d cwd p).2 = setCurrentDirectory (statOnly d cwd) (fun q => (chdir d cwd q).2) p := by
  rw [setCwd, setCurrentDirectory]
  split <;> rfl

/-- The hypotheses are met. -/
example : isFile (statOnly small 0) b!"a/f" = true ∧ isFile (statOnly small 0) b!"a/f/" = false ∧ isDirectory (statOnly small 0) b!"a/" = true ∧
    isReadable (fileSys small (fun _ => true) (fun _ => true) (fun n => n == 0) 0) b!"a" = false ∧
    isReadable (fileSys small (fun _ => true) (fun _ => true) (fun n => n == 0) 0) b!"l" = true ∧
    pathExists (statOnly small 0) b!"b" = false ∧ (setCwd small 0 b!"l").1 = 0 ∧ (setCwd small 0 b!"a") = (1, .ok true) := by
  refine ⟨?_, ?_, ?_, ?_, ?_, ?_, ?_, ?_⟩ <;> decide +kernel

end Verif.Path
