import Verif.Parallel.Model
import Verif.Regression.Spec
import Verif.Itk.DataDirSpec

/-!
# The files a run is about

Files are identified by their names: a file with several names (links, or relative and absolute names) is not considered.
-/

namespace Verif.Parallel.Spec
open Verif.Regression Verif.Regression.Spec Verif.Measurement
open Verif.Path (FileSys)
open Verif.Itk.Spec (InDir)

/-- The names a run uses, and the directories in which it looks for them. -/
structure Footprint where
  names : Str → Prop
  dirs : Str → Prop

/-- A file is in the footprint: it has one of the names, or one of the names as seen from one of the directories. -/
def Footprint.Has (F : Footprint) (file : Str) : Prop :=
  ∃ name, F.names name ∧ (cstr name = file ∨ ∃ d full, F.dirs d ∧ InDir d name full ∧ cstr full = file)

/-- The files of the footprint are the same. -/
def Same (F : Footprint) (g g' : Files) : Prop :=
  ∀ n, F.Has n → g.fs.stat n = g'.fs.stat n ∧ g.fs.canRead n = g'.fs.canRead n ∧ g.fs.canWrite n = g'.fs.canWrite n ∧ g.fs.canExec n = g'.fs.canExec n ∧
    g.bytes n = g'.bytes n ∧ g.creatable n = g'.creatable n

/-- Two worlds are the same to a process with this footprint. -/
def SameTo (F : Footprint) (w w' : World) : Prop :=
  Same F ⟨w.fs, w.bytes, w.creatable⟩ ⟨w'.fs, w'.bytes, w'.creatable⟩ ∧ w.cout = w'.cout ∧ w.host = w'.host ∧ w.time = w'.time

/-- A value given with an option. -/
def Given (opt v : Str) (argv : List Str) : Prop := ∃ a b, argv = a ++ opt :: v :: b

/-- A test keeps to the footprint: so do the files it measures and the names it sets, and what it does and sees is decided by the files of the footprint. -/
def Keeps (F : Footprint) : Prog → Prop
  | .ret _ => True
  | .fails _ => True
  | .call c k => (∀ f, c.meas = .file f → F.names f.fileName) ∧ ∀ r, Keeps F (k r)
  | .act f k => (∀ w w', SameTo F w w' → SameTo F (f w) (f w')) ∧ Keeps F k
  | .look k => (∀ w w', SameTo F w w' → k w = k w') ∧ ∀ w, Keeps F (k w)
  | .ask k => ∀ s, Keeps F (k s)
  | .setTolerance _ k => Keeps F k
  | .setExpected _ k => Keeps F k
  | .setImageTolerance _ k => Keeps F k
  | .setSearchPath ps k => (∀ d ∈ ps, F.dirs d) ∧ Keeps F k
  | .prependSearchPath d k => F.dirs d ∧ Keeps F k
  | .setInFileName n k => F.names n ∧ Keeps F k
  | .setOutFileName n k => F.names n ∧ Keeps F k

/-- The files named in a baseline are in the footprint, also as they are looked up. -/
def Names (F : Footprint) (ms : List Meas) : Prop :=
  ∀ f, .file f ∈ ms → F.names f.fileName ∧ ∀ t, Path.tail f.fileName = .ok t → F.names t

/-- Images are compared by their files. -/
def ByFiles (F : Footprint) (env : Env) : Prop :=
  ∀ im, env.image = some im → ∀ w w' : World, Same F ⟨w.fs, w.bytes, w.creatable⟩ ⟨w'.fs, w'.bytes, w'.creatable⟩ →
    (∀ t a b, F.Has (cstr a) → F.Has (cstr b) → im.compare w t a b = im.compare w' t a b) ∧
    ∀ t (f g : FileM), F.Has (cstr f.fileName) → F.Has (cstr g.fileName) → im.diff w t f g = im.diff w' t f g

/-- A run of `Main` keeps to the footprint: the file names on its command line, the search path it has from the beginning, the files named in any document it may read as baseline, and its test. -/
structure Within (F : Footprint) (x : Start) (g : Files) : Prop where
  images : ByFiles F x.env
  values : ∀ opt v, IsOption opt → opt ≠ b!"-R" → Given opt v x.argv → F.names v
  dirs : ∀ v, Given b!"-P" v x.argv → F.dirs v
  path : ∀ d ∈ x.obj.searchPath, F.dirs d
  input : x.obj.inFileName = [] ∨ F.names x.obj.inFileName
  output : x.obj.outFileName = [] ∨ F.names x.obj.outFileName
  idle : x.obj.os = none ∧ x.obj.is = none ∧ x.obj.input = []
  documents : ∀ bytes ms, (bytes = [] ∨ ∃ n, F.Has n ∧ g.bytes n = bytes) → x.env.readXML bytes = .ok ms → Names F ms
  tests : ∀ args, Keeps F (x.test args)

/-- A test does nothing to the files of the footprint. -/
def Spares (F : Footprint) : Prog → Prop
  | .ret _ => True
  | .fails _ => True
  | .call _ k => ∀ r, Spares F (k r)
  | .act f k => (∀ w, Same F ⟨w.fs, w.bytes, w.creatable⟩ ⟨(f w).fs, (f w).bytes, (f w).creatable⟩) ∧ Spares F k
  | .look k => ∀ w, Spares F (k w)
  | .ask k => ∀ s, Spares F (k s)
  | .setTolerance _ k => Spares F k
  | .setExpected _ k => Spares F k
  | .setImageTolerance _ k => Spares F k
  | .setSearchPath _ k => Spares F k
  | .prependSearchPath _ k => Spares F k
  | .setInFileName _ k => Spares F k
  | .setOutFileName _ k => Spares F k

/-- A run of `Main` does nothing to the files of the footprint: its output is another file, and so is what its test writes. -/
structure Apart (F : Footprint) (x : Start) : Prop where
  output : ∀ v, Given b!"-O" v x.argv → ¬ F.Has (cstr v)
  before : x.obj.outFileName = [] ∨ ¬ F.Has (cstr x.obj.outFileName)
  idle : x.obj.os = none
  tests : ∀ args, Spares F (x.test args)

end Verif.Parallel.Spec
