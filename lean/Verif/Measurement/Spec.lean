import Verif.Prelude

/-!
# Vocabulary for measurements, independently of the code
-/

namespace Verif.Measurement.Spec

/-- The XML form of a character of text: the three markup characters become entities. -/
def xmlChar (c : UInt8) : Str :=
  if c = 38 then b!"&amp;" else if c = 60 then b!"&lt;" else if c = 62 then b!"&gt;" else [c]

/-- What an XML reader makes of text: the three entities become the characters they stand for. -/
def unescape : Str → Str
  | 38 :: 97 :: 109 :: 112 :: 59 :: r => 38 :: unescape r
  | 38 :: 108 :: 116 :: 59 :: r => 60 :: unescape r
  | 38 :: 103 :: 116 :: 59 :: r => 62 :: unescape r
  | c :: r => c :: unescape r
  | [] => []

/-- An attribute of an XML element with a space in front; left out when it has its default value "none". -/
def optionalAttr (key value : Str) : Str :=
  if value = b!"none" then [] else b!" " ++ key ++ b!"=\"" ++ value ++ b!"\""

/-- An XML element with a name and a type attribute, further attributes and a body. -/
def element (tag name type more body : Str) : Str :=
  b!"<" ++ tag ++ b!" name=\"" ++ name ++ b!"\" type=\"" ++ type ++ b!"\"" ++ more ++ b!">" ++ body ++ b!"</" ++ tag ++ b!">"

/-- Text that is safe in the body of an element and stands for `s`: no angle bracket, every ampersand starts one of
the three entities, and reading the entities back gives `s`. -/
def SafeFor (s out : Str) : Prop :=
  60 ∉ out ∧ 62 ∉ out ∧ (∀ a b, out = a ++ 38 :: b → b!"amp;" <+: b ∨ b!"lt;" <+: b ∨ b!"gt;" <+: b) ∧ unescape out = s

/-- The number written by decimal digits, most significant first. -/
def horner : Str → Nat
  | [] => 0
  | c :: r => (c.toNat - 48) * 10 ^ r.length + horner r

/-- Canonical decimal notation of an integer: an optional minus sign, digits, no leading zero
except for zero itself, no negative zero. -/
def IsDecimal (v : Int) (s : Str) : Prop :=
  ∃ ds : Str, s = (if v < 0 then [45] else []) ++ ds ∧ ds ≠ [] ∧ (∀ c ∈ ds, 48 ≤ c ∧ c ≤ 57) ∧
    horner ds = v.natAbs ∧ (ds.head? = some 48 → ds.length = 1)

end Verif.Measurement.Spec
