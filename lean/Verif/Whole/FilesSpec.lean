import Verif.Whole.Spec
import Verif.Itk.DataDirSpec
import Verif.Itk.ProgramSpec

/-!
# Tests that measure files
-/

namespace Verif.Whole.Spec
open Verif.Regression Verif.Xml.Spec
open Verif.Itk.Spec (LookedUp LastComponent)

/-- The kinds of files the library has a measurement function for. -/
inductive FileKind where
  | text
  | png
  | jpeg

/-- A measurement of the file at `path`. -/
structure FileItem where
  name : Str
  kind : FileKind
  path : Str

/-- Names that can be written to XML as they are, and a last component that is printable and not empty. -/
def FileItem.Valid (x : FileItem) : Prop :=
  x.name ≠ [] ∧ (∀ c ∈ x.name, AttrChar c) ∧ ∀ last, LastComponent x.path last → last ≠ [] ∧ ∀ c ∈ last, Printable c

/-- Both are measurements of text files of one name; the file with the last component of the first path is found in the directories, the first having it being the one that counts; it can be read, and so can the
file measured second; and they have the same bytes. -/
def SameText (w : World) (dirs : List Str) (x y : FileItem) : Prop :=
  x.name = y.name ∧ x.kind = .text ∧ y.kind = .text ∧
    ∃ last place bytes, LastComponent x.path last ∧ LookedUp w.fs last dirs place ∧ w.openRead place = some bytes ∧ w.openRead y.path = some bytes

open Classical in
/-- The number of measurements of the second list that are not the same text as the measurement at their position in the first. -/
noncomputable def otherText (w : World) (dirs : List Str) : List FileItem → List FileItem → Nat
  | _, [] => 0
  | [], _ :: ys => 1 + otherText w dirs [] ys
  | x :: xs, y :: ys => (if SameText w dirs x y then 0 else 1) + otherText w dirs xs ys

end Verif.Whole.Spec
