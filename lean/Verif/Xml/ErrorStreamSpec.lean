import Verif.Xml.ErrorStream
import Verif.Regression.Spec

/-!
# What is expected on the error stream about exceptions
-/

namespace Verif.Xml.Spec

/-- The standard exception classes of the handlers and their direct base classes, [std.exceptions] of the C++ standard. -/
def baseClass (c : Str) : Option Str :=
  if c = b!"std::length_error" ∨ c = b!"std::domain_error" ∨ c = b!"std::out_of_range" ∨ c = b!"std::invalid_argument" then some b!"std::logic_error"
  else if c = b!"std::range_error" ∨ c = b!"std::overflow_error" ∨ c = b!"std::underflow_error" then some b!"std::runtime_error"
  else if c = b!"std::bad_alloc" ∨ c = b!"std::bad_cast" ∨ c = b!"std::runtime_error" ∨ c = b!"std::logic_error" then some b!"std::exception"
  else none

/-- One of these classes. -/
def Standard (c : Str) : Prop := (baseClass c).isSome = true ∨ c = b!"std::exception"

/-- The classes of an exception, the most derived first, are possible: each of the standard classes is followed by its base class, and nothing follows `std::exception`. -/
def Possible (classes : List Str) : Prop := ∀ (i : Nat) (c : Str), classes[i]? = some c → Standard c → classes[i + 1]? = baseClass c

/-- `c` is the most specific standard class of the exception. -/
def MostSpecific (classes : List Str) (c : Str) : Prop := ∃ before after, classes = before ++ c :: after ∧ Standard c ∧ ∀ x ∈ before, ¬ Standard x

/-- The line about an exception of the class `c`; a C string ends at a zero byte. -/
def lineAbout (c what : Str) : Str := c ++ b!": \"" ++ cstr what ++ b!"\"\n"

/-- The lines about the options `-O` (C101). -/
def outputLines (fs : Path.FileSys) (ps : List (Str × Str)) : List Str :=
  ((Regression.Spec.values b!"-O" ps).filter fun v => Path.isFile fs v && !Path.isWritable fs v).map fun v => b!"unable to write to file \"" ++ v ++ b!"\"!\n"

/-- What the exception says about a refused value of `-I` or `-P`. -/
def refusedText (option value : Str) : Str :=
  (if option = b!"-I" then b!"unable to read input file \"" else b!"unable to read input path \"") ++ value ++ b!"\"!"

/-- The object when the options have been processed (C35, C36) and the run counts as failed until its end. -/
def started (s : Regression.St) (ps : List (Str × Str)) : Regression.St :=
  { s with obj := { s.obj with
    unmatched := s.obj.unmatched + 1
    expected := (match Regression.Spec.lastValue b!"-R" ps with | none => s.obj.expected | some v => Regression.strtolInt v)
    searchPath := (Regression.Spec.values b!"-P" ps).reverse ++ s.obj.searchPath
    inFileName := (match Regression.Spec.lastValue b!"-I" ps with | none => s.obj.inFileName | some v => v)
    outFileName := (match Regression.Spec.lastValue b!"-O" ps with
      | none => s.obj.outFileName
      | some v => if Path.isFile s.world.fs v && !Path.isWritable s.world.fs v then s.obj.outFileName else v) } }

/-- `w` is the world when the output file has been opened, or there is none. -/
def Opened (s : Regression.St) (w : Regression.World) : Prop :=
  (s.obj.outFileName = [] ∧ w = s.world) ∨ (s.obj.outFileName ≠ [] ∧ s.world.openWrite s.obj.outFileName = some w)

/-- The state then. -/
def outputOpened (s : Regression.St) (w : Regression.World) : Regression.St :=
  if s.obj.outFileName = [] then ⟨s.obj, w⟩ else ⟨{ s.obj with os := some s.obj.outFileName }, w⟩

/-- The file that is opened for the input file `name`. -/
def lookedUp (fs : Path.FileSys) (name : Str) (dirs : List Str) : Str :=
  if Path.searchPathList fs name dirs = [] then name else Path.searchPathList fs name dirs

/-- The lines of the reader (C100) if a baseline was read. -/
def baselineLines (X : Expat) (line why : X.State → Str) (s : Regression.St) : List Str :=
  match s.obj.is with
  | none => []
  | some bytes => (readXMLM X line why bytes).1

end Verif.Xml.Spec
