import Verif.Stderr.Model
import Verif.Measurement.MessagesSpec
import Verif.Xml.ErrorStreamSpec
import Verif.Regression.CompareSpec

/-!
# What is expected on the error stream of a run
-/

namespace Verif.Stderr.Spec
open Verif.Measurement Verif.Measurement.Spec Verif.Regression Verif.Regression.Spec

/-- A file cannot be opened. -/
def notOpened (name : Str) : Str := b!"error opening file \"" ++ name ++ b!"\".\n"

/-- There is no class for data of the type. -/
def noClass (type : Str) : Str := b!"Unknown measurement type \"" ++ type ++ b!"\".\n"

/-- The lines about the data of an entry of the baseline that is compared with `n` bytes of data: those about reading it (C102), once if the entry is base64 or has not `n` bytes, and otherwise three times. -/
def entryLines (b : DataM) (n : Nat) : List Str :=
  if b.data ≠ none then []
  else if (b.encoding = b!"base64" ∧ Base64.isBase64 false b.content ≠ .ok 0) ∨ b.content.length ≠ n then readLines b
  else readLines b ++ readLines b ++ readLines b

/-- The kind of a number. -/
def number : Measurement.Kind → Bool
  | .num _ => true
  | _ => false

/-- The lines about an entry of the baseline and a measurement of the same name and type, both data or files. -/
def pairLines (w : World) : Meas → Meas → List Str
  | .data b, .data t => entryLines b t.content.length
  | .data b, .file g => match w.openRead g.fileName with
    | none => notOpened g.fileName :: (if b.name = [] then entryLines b 0 else [])
    | some bytes => entryLines b bytes.length
  | .file f, .data t => if number t.kind = true ∨ w.openRead f.fileName ≠ none then [] else [notOpened f.fileName]
  | .file f, .file g =>
    if w.openRead f.fileName = none then
      notOpened f.fileName :: (if f.name = [] ∧ f.type = b!"text/plain" ∧ w.openRead g.fileName = none then [notOpened g.fileName] else [])
    else if f.type = b!"text/plain" then (if w.openRead g.fileName = none then [notOpened g.fileName] else [])
    else [noClass f.type]

/-- The entry with the file it names looked up in the search path, if a file is measured. -/
def entryFor (s : St) : Meas → Meas → Meas
  | .file f, .file _ => .file { f with fileName := located s.world s.obj.searchPath f.fileName }
  | b, _ => b

/-- Two image files, compared by an object of `itk::Regression`. -/
def Images (env : Env) (b t : Meas) : Prop := env.image ≠ none ∧ t.type = b!"image/itk" ∧ (∃ f, b = .file f) ∧ ∃ g, t = .file g

/-- A test that writes some texts to the error stream, makes some measurements and returns `v`. -/
def speech (v : Int) : List (Str ⊕ Call) → Talk
  | [] => .ret v
  | .inl t :: l => .say t (speech v l)
  | .inr c :: l => .call c fun _ => speech v l

/-- What it writes itself. -/
def words (l : List (Str ⊕ Call)) : List Str := l.filterMap fun x => x.getLeft?

/-- What it measures. -/
def calls (l : List (Str ⊕ Call)) : List Call := l.filterMap fun x => x.getRight?

/-- An entry as it is recorded: its text is the data. -/
def Plain : Meas → Prop
  | .data d => d.data = none ∧ d.encoding = b!"none" ∧ d.compression = b!"none"
  | .file _ => False

end Verif.Stderr.Spec
