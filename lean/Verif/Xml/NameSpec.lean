import Verif.Xml.Spec

/-!
# Start tags in XML, as far as they matter for the names of measurements

What any XML parser may report of a start tag in a document without declared entities; wider than the grammar of `Verif/Xml/Spec.lean`.
-/

namespace Verif.Xml.Spec
open Verif.Measurement

/-- White space. -/
def Blank (s : Str) : Prop := ∀ c ∈ s, c = 9 ∨ c = 10 ∨ c = 13 ∨ c = 32

/-- The text between the quotes of an attribute, and the value it stands for.  White space is read as spaces; a reference (`&lt;`, `&#60;`,
`&#x3C;`, ...) stands for fewer bytes than it is written with. -/
inductive RawValue : Str → Str → Prop
  | nil : RawValue [] []
  | char (c : UInt8) (r v : Str) : c ≠ 38 → RawValue r v → RawValue (c :: r) (c :: v)
  | blank (b r v : Str) : b ≠ [] → Blank b → RawValue r v → RawValue (b ++ r) (32 :: v)
  | ref (n w r v : Str) : w.length < n.length + 2 → RawValue r v → RawValue (b!"&" ++ n ++ b!";" ++ r) (w ++ v)

/-- The rest of a start tag, after the name of the element, and the attributes in it, in single or double quotes. -/
inductive TagAttrs : Str → List (Str × Str) → Prop
  | done (b : Str) : Blank b → TagAttrs b []
  | empty (b : Str) : Blank b → TagAttrs (b ++ b!"/") []
  | attr (b n b1 b2 : Str) (q : UInt8) (raw v rest : Str) (l : List (Str × Str)) : Blank b → 60 ∉ n → Blank b1 → Blank b2 → q = 34 ∨ q = 39 →
      q ∉ raw → 60 ∉ raw → RawValue raw v → TagAttrs rest l →
      TagAttrs (b ++ n ++ b1 ++ b!"=" ++ b2 ++ [q] ++ raw ++ [q] ++ rest) ((n, v) :: l)

/-- The parser reports start tags that are in the document: in a document that begins with the declaration, a comment and the document
element, every start tag reported is written behind the comment. -/
def TagsFromText (X : Expat) : Prop :=
  ∀ c root rest chunks, Comment c → Name root → Flagged chunks →
    bytesOf chunks = declaration ++ b!"\n<!--" ++ c ++ b!"-->\n<" ++ root ++ b!">" ++ rest →
    ∀ n l, .start n l ∈ (feeds X X.init chunks).1 →
      ∃ pre tag post, b!"\n<" ++ root ++ b!">" ++ rest = pre ++ b!"<" ++ n ++ tag ++ b!">" ++ post ∧ 60 ∉ n ∧ TagAttrs tag l

/-- A value that stands for itself within single quotes, too. -/
def PlainAttr (s : Str) : Prop := ∀ c ∈ s, AttrChar c ∧ c ≠ 39

/-- The attributes other than the name are plain, and the content is escaped when printed. -/
def PlainExceptName : Meas → Prop
  | .data d => PlainAttr d.encoding ∧ PlainAttr d.compression ∧ d.escape = true
  | .file f => PlainAttr f.type ∧ f.escape = true

end Verif.Xml.Spec
