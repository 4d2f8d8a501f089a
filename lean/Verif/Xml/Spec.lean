import Verif.Xml.Model

/-!
# The part of XML the framework writes, and what is assumed about expat

The grammar below is a small part of XML 1.0: a declaration, a comment, elements with attributes in double quotes, text with the
entities `&amp;`, `&lt;`, `&gt;`, line ends normalised as XML prescribes.  expat is assumed to parse this part correctly (`Conforms`);
nothing is assumed about other documents, except where a theorem says so.
-/

namespace Verif.Xml.Spec
open Verif.Measurement

/-- Tab, new line and the printable ASCII characters. -/
def Printable (c : UInt8) : Prop := c = 9 ∨ c = 10 ∨ (32 ≤ c ∧ c ≤ 126)

instance (c : UInt8) : Decidable (Printable c) := inferInstanceAs (Decidable (_ ∨ _ ∨ _))

/-- A character that stands for itself in text. -/
def TextChar (c : UInt8) : Prop := Printable c ∧ c ≠ 38 ∧ c ≠ 60 ∧ c ≠ 62

/-- A character that stands for itself in an attribute value (a tab or a new line would be read as a space). -/
def AttrChar (c : UInt8) : Prop := 32 ≤ c ∧ c ≤ 126 ∧ c ≠ 34 ∧ c ≠ 38 ∧ c ≠ 60

instance (c : UInt8) : Decidable (TextChar c) := inferInstanceAs (Decidable (_ ∧ _))
instance (c : UInt8) : Decidable (AttrChar c) := inferInstanceAs (Decidable (_ ∧ _))

/-- A letter. -/
def Letter (c : UInt8) : Prop := (65 ≤ c ∧ c ≤ 90) ∨ (97 ≤ c ∧ c ≤ 122)

instance (c : UInt8) : Decidable (Letter c) := inferInstanceAs (Decidable (_ ∨ _))

/-- A name of an element or attribute: letters. -/
def Name (n : Str) : Prop := n ≠ [] ∧ ∀ c ∈ n, Letter c

instance (n : Str) : Decidable (Name n) := inferInstanceAs (Decidable (_ ∧ _))

/-- The text between the quotes of an attribute, and the value it stands for. -/
inductive AttrValue : Str → Str → Prop
  | nil : AttrValue [] []
  | char (c : UInt8) (r v : Str) : AttrChar c → AttrValue r v → AttrValue (c :: r) (c :: v)
  | amp (r v : Str) : AttrValue r v → AttrValue (b!"&amp;" ++ r) (38 :: v)
  | lt (r v : Str) : AttrValue r v → AttrValue (b!"&lt;" ++ r) (60 :: v)
  | gt (r v : Str) : AttrValue r v → AttrValue (b!"&gt;" ++ r) (62 :: v)

/-- The attributes in a start tag; no attribute is given twice. -/
inductive Attrs : Str → List (Str × Str) → Prop
  | nil : Attrs [] []
  | cons (n raw v rest : Str) (l : List (Str × Str)) : Name n → AttrValue raw v → Attrs rest l → n ∉ l.map Prod.fst →
      Attrs (b!" " ++ n ++ b!"=\"" ++ raw ++ b!"\"" ++ rest) ((n, v) :: l)

/-- The content of an element, and the callbacks for it. -/
inductive Content : Str → List Event → Prop
  | nil : Content [] []
  | char (c : UInt8) (r : Str) (es : List Event) : TextChar c → Content r es → Content (c :: r) (.text [c] :: es)
  | crlf (r : Str) (es : List Event) : Content r es → Content (13 :: 10 :: r) (.text [10] :: es)
  | amp (r : Str) (es : List Event) : Content r es → Content (b!"&amp;" ++ r) (.text [38] :: es)
  | lt (r : Str) (es : List Event) : Content r es → Content (b!"&lt;" ++ r) (.text [60] :: es)
  | gt (r : Str) (es : List Event) : Content r es → Content (b!"&gt;" ++ r) (.text [62] :: es)
  | element (n as : Str) (l : List (Str × Str)) (body : Str) (es : List Event) (r : Str) (es' : List Event) : Name n → Attrs as l → Content body es → Content r es' →
      Content (b!"<" ++ n ++ as ++ b!">" ++ body ++ b!"</" ++ n ++ b!">" ++ r) (.start n l :: es ++ .stop n :: es')

/-- The text of a comment: printable, no two hyphens in a row, no hyphen at the end. -/
def Comment (c : Str) : Prop := (∀ x ∈ c, Printable x) ∧ (∀ a b, c ≠ a ++ b!"--" ++ b) ∧ c.getLast? ≠ some 45

/-- The declaration. -/
def declaration : Str := b!"<?xml version=\"1.0\" encoding=\"US-ASCII\"?>"

/-- A document: declaration, comment, document element, each followed by a new line. -/
def Document (s : Str) (es : List Event) : Prop :=
  ∃ c n as l body bes, Comment c ∧ Name n ∧ Attrs as l ∧ Content body bes ∧
    s = declaration ++ b!"\n<!--" ++ c ++ b!"-->\n<" ++ n ++ as ++ b!">" ++ body ++ b!"</" ++ n ++ b!">\n" ∧
    es = .start n l :: bes ++ [.stop n]

/-- Callbacks for text in a row joined into one, and empty ones left out: what does not depend on how the parser splits text. -/
def canon : List Event → List Event
  | [] => []
  | .text s :: es => match canon es with
    | .text t :: r => .text (s ++ t) :: r
    | r => if s = [] then r else .text s :: r
  | e :: es => e :: canon es

/-- Feeding chunks up to the first that fails: all callbacks made, and whether all succeeded. -/
def feeds (X : Expat) : X.State → List (Str × Bool) → List Event × Bool
  | _, [] => ([], true)
  | st, (c, f) :: cs =>
    match X.feed st c f with
    | (st, es, true) => let r := feeds X st cs; (es ++ r.1, r.2)
    | (_, es, false) => (es, false)

/-- Chunks of which exactly the last one is flagged as the last. -/
def Flagged (chunks : List (Str × Bool)) : Prop := ∃ (init : List Str) (last : Str), chunks = init.map (fun c => (c, false)) ++ [(last, true)]

/-- The bytes of chunks. -/
def bytesOf (chunks : List (Str × Bool)) : Str := (chunks.map Prod.fst).flatten

/-- The parser parses documents of the grammar, however they are cut into chunks. -/
def Conforms (X : Expat) : Prop :=
  ∀ s es, Document s es → ∀ chunks, Flagged chunks → bytesOf chunks = s →
    canon (feeds X X.init chunks).1 = canon es ∧ (feeds X X.init chunks).2 = true

/-- The parser rejects a document with two hyphens inside its first comment, as XML requires, before any callback. -/
def RejectsDoubleHyphen (X : Expat) : Prop :=
  ∀ c d rest chunks, (∀ x ∈ c, Printable x) → (∀ a b, c ≠ a ++ b!"--" ++ b) → d ≠ 62 → Flagged chunks →
    bytesOf chunks = declaration ++ b!"\n<!--" ++ c ++ b!"--" ++ d :: rest → feeds X X.init chunks = ([], false)

/-- A measurement whose name and other attributes stand for themselves in XML and whose content is printable text, not yet read as data. -/
def Clean : Meas → Prop
  | .data d => (∀ c ∈ d.name, AttrChar c) ∧ (∀ c ∈ d.encoding, AttrChar c) ∧ (∀ c ∈ d.compression, AttrChar c) ∧
      (∀ c ∈ d.content, Printable c) ∧ d.escape = true ∧ d.data = none
  | .file f => (∀ c ∈ f.name, AttrChar c) ∧ (∀ c ∈ f.type, AttrChar c) ∧ (∀ c ∈ f.fileName, Printable c) ∧ f.escape = true

end Verif.Xml.Spec
