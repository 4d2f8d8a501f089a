import Verif.Xml.TreeSpec

/-!
# What the reader says about a baseline document, independently of the reader
-/

namespace Verif.Xml.Spec
open Verif.Measurement

/-- The types of a `DartMeasurement` that are known. -/
def knownTypes : List Str := [b!"text/plain", b!"text/string", b!"numeric/integer", b!"numeric/float", b!"numeric/double", b!"numeric/boolean"]

/-- The attributes of a `DartMeasurement` that are known. -/
def dataKeys : List Str := [b!"name", b!"type", b!"encoding", b!"compression"]

/-- The attributes of a `DartMeasurementFile` that are known. -/
def fileKeys : List Str := [b!"name", b!"type"]

/-- One line for each attribute that is not known. -/
def attributeMessages (known : List Str) (l : List (Str × Str)) : List Str :=
  (l.filter fun p => p.1 ∉ known).map fun p => b!"XML: unknow attribute \"" ++ p.1 ++ b!"\"\n"

/-- The number of elements in the content of an element. -/
def Forest.elements : Forest → Nat
  | .nil => 0
  | .text _ r => r.elements
  | .element _ _ b r => 1 + b.elements + r.elements

/-- One line for each element inside an element that is no measurement, up to the point where text before an element stops the program. -/
def nestedMessages (seen : Bool) : Forest → List Str
  | .nil => []
  | .text s r => nestedMessages (seen || !s.isEmpty) r
  | .element _ _ b r => if seen then [] else List.replicate (1 + b.elements) b!"XML: depth is too deep\n" ++ nestedMessages false r

/-- What is said about a child of the document element. -/
def elementMessages (name : Str) (l : List (Str × Str)) (body : Forest) : List Str :=
  if name = b!"DartMeasurement" then
    match attr l b!"type" with
    | some type => (if type ∈ knownTypes then [] else [b!"XML: unknow dart measurement type \"" ++ type ++ b!"\"\n"]) ++ attributeMessages dataKeys l
    | none =>
      if ∃ p ∈ l, p.1 ∈ dataKeys then attributeMessages dataKeys (l.takeWhile fun p => p.1 ∉ dataKeys)
      else attributeMessages dataKeys l ++ nestedMessages false body
  else if name = b!"DartMeasurementFile" then attributeMessages fileKeys l
  else (b!"XML: unknown element type \"" ++ name ++ b!"\"\n") :: nestedMessages false body

/-- What is said about the content of the document element, up to where the program stops. -/
def forestMessages : Forest → List Str
  | .nil => []
  | .text _ r => forestMessages r
  | .element n l b r => elementMessages n l b ++
    match readElement n l b with
    | .measurements _ => forestMessages r
    | _ => []

/-- What is said about the document element. -/
def rootMessages (name : Str) : List Str := if name = b!"output" then [] else [b!"XML: expected \"output\" document element type\n"]

/-- Content that is read without a word: measurements of known types with known attributes and without elements inside, and elements
`DartMeasurement` without any attribute, which are dropped. -/
def Forest.Quiet : Forest → Prop
  | .nil => True
  | .text _ r => r.Quiet
  | .element n l b r => b.hasElement = false ∧ r.Quiet ∧
    ((n = b!"DartMeasurement" ∧ (∀ p ∈ l, p.1 ∈ dataKeys) ∧ (l = [] ∨ ∃ t ∈ knownTypes, attr l b!"type" = some t)) ∨
     (n = b!"DartMeasurementFile" ∧ ∀ p ∈ l, p.1 ∈ fileKeys))

/-- One content after another. -/
def Forest.append : Forest → Forest → Forest
  | .nil, g => g
  | .text s r, g => .text s (r.append g)
  | .element n l b r, g => .element n l b (r.append g)

end Verif.Xml.Spec
