import Verif.Parallel.Spec

/-!
# What a verdict may not depend on

A run reads the files of a footprint and writes to one of some output files.  Its surroundings are also the name of the host, the time, standard output and whatever becomes of the
bytes it has written (other programs may change them, or they are lost).
-/

namespace Verif.Parallel.Spec
open Verif.Regression Verif.Regression.Spec Verif.Measurement

/-- The files that are read are the same, and the output files can be opened in the same way; their contents may be different. -/
def Alike (F : Footprint) (outputs : Str → Prop) (g g' : Files) : Prop :=
  Same F g g' ∧ ∀ n, outputs n → g.fs.stat (cstr n) = g'.fs.stat (cstr n) ∧ g.fs.canRead (cstr n) = g'.fs.canRead (cstr n) ∧ g.fs.canWrite (cstr n) = g'.fs.canWrite (cstr n) ∧
    g.fs.canExec (cstr n) = g'.fs.canExec (cstr n) ∧ g.creatable (cstr n) = g'.creatable (cstr n)

/-- The same for worlds: host, time and standard output may be different. -/
def AlikeTo (F : Footprint) (outputs : Str → Prop) (w w' : World) : Prop := Alike F outputs ⟨w.fs, w.bytes, w.creatable⟩ ⟨w'.fs, w'.bytes, w'.creatable⟩

/-- A test that does not care about host, time, standard output and the contents of output files: it measures files of the footprint and sets names of it, and what it does to the files that are read and what it
sees is decided by these files. -/
def Blind (F : Footprint) (outputs : Str → Prop) : Prog → Prop
  | .ret _ => True
  | .fails _ => True
  | .call c k => (∀ f, c.meas = .file f → F.names f.fileName) ∧ ∀ r, Blind F outputs (k r)
  | .act f k => (∀ w w', AlikeTo F outputs w w' → AlikeTo F outputs (f w) (f w')) ∧ Blind F outputs k
  | .look k => (∀ w w', AlikeTo F outputs w w' → k w = k w') ∧ ∀ w, Blind F outputs (k w)
  | .ask k => ∀ s, Blind F outputs (k s)
  | .setTolerance _ k => Blind F outputs k
  | .setExpected _ k => Blind F outputs k
  | .setImageTolerance _ k => Blind F outputs k
  | .setSearchPath ps k => (∀ d ∈ ps, F.dirs d) ∧ Blind F outputs k
  | .prependSearchPath d k => F.dirs d ∧ Blind F outputs k
  | .setInFileName n k => F.names n ∧ Blind F outputs k
  | .setOutFileName n k => outputs n ∧ Blind F outputs k

/-- A run of `Main` that reads files of the footprint and writes to output files, which are not in the footprint. -/
structure ReadsWrites (F : Footprint) (outputs : Str → Prop) (x : Start) (g : Files) : Prop where
  apart : ∀ n, outputs n → ¬ F.Has (cstr n)
  images : ByFiles F x.env
  values : ∀ v, (Given b!"-I" v x.argv ∨ Given b!"-P" v x.argv) → F.names v
  dirs : ∀ v, Given b!"-P" v x.argv → F.dirs v
  writes : ∀ v, Given b!"-O" v x.argv → outputs v
  path : ∀ d ∈ x.obj.searchPath, F.dirs d
  input : x.obj.inFileName = [] ∨ F.names x.obj.inFileName
  output : x.obj.outFileName = [] ∨ outputs x.obj.outFileName
  idle : x.obj.os = none ∧ x.obj.is = none ∧ x.obj.input = []
  documents : ∀ bytes ms, (bytes = [] ∨ ∃ n, F.Has n ∧ g.bytes n = bytes) → x.env.readXML bytes = .ok ms → Names F ms
  tests : ∀ args, Blind F outputs (x.test args)

/-- Some steps of a process during which something happens to the contents of output files, or to files that are not read, after every step. -/
inductive Tampered (F : Footprint) (outputs : Str → Prop) : Nat → Files × Process → Files × Process → Prop
  | here (z : Files × Process) : Tampered F outputs 0 z z
  | step (k : Nat) (g : Files) (p : Process) (g' : Files) (z : Files × Process) : Alike F outputs (p.step g).1 g' → Tampered F outputs k (g', (p.step g).2) z →
      Tampered F outputs (k + 1) (g, p) z

end Verif.Parallel.Spec
