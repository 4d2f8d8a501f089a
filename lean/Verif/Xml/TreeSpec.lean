import Verif.Xml.Spec

/-!
# What a baseline document means, element by element, independently of the reader
-/

namespace Verif.Xml.Spec
open Verif.Measurement

/-- The content of an element: text and elements, in order. -/
inductive Forest where
  | nil
  | text (s : Str) (rest : Forest)
  | element (name : Str) (attrs : List (Str × Str)) (body rest : Forest)

/-- The callbacks for such content. -/
def Forest.events : Forest → List Event
  | .nil => []
  | .text s r => .text s :: r.events
  | .element n l b r => .start n l :: b.events ++ .stop n :: r.events

/-- The text that stands directly in it. -/
def Forest.chars : Forest → Str
  | .nil => []
  | .text s r => s ++ r.chars
  | .element _ _ _ r => r.chars

/-- Is there an element in it? -/
def Forest.hasElement : Forest → Bool
  | .nil => false
  | .text _ r => r.hasElement
  | .element _ _ _ _ => true

/-- Is there an element with text between it and the element before (or the beginning)?  `seen`: there is such text already. -/
def Forest.textThenElement (seen : Bool) : Forest → Bool
  | .nil => false
  | .text s r => r.textThenElement (seen || !s.isEmpty)
  | .element _ _ _ r => seen || r.textThenElement false

/-- The value of an attribute. -/
def attr (l : List (Str × Str)) (key : Str) : Option Str := (l.find? fun p => p.1 = key).map (·.2)

/-- The kind of measurement for a type; plain text for an unknown type. -/
def kindOf (type : Str) : Kind :=
  (([.plain, .string, .num .integer, .num .float, .num .double, .num .boolean] : List Kind).find? fun k => k.typeName = type).getD .plain

/-- The outcome of reading: measurements, a failed assertion, or undefined behaviour. -/
inductive Read where
  | measurements (ms : List Meas)
  | assertion
  | undefined

/-- An element that is no measurement: skipped, unless there is text before one of its children. -/
def skipped (body : Forest) : Read := if body.textThenElement false then .assertion else .measurements []

/-- An element that is a measurement `m` of its text; it may not have children. -/
def measured (body : Forest) (m : Str → Meas) : Read :=
  if body.hasElement then .assertion else .measurements [m body.chars]

/-- What an element of the document stands for. -/
def readElement (name : Str) (l : List (Str × Str)) (body : Forest) : Read :=
  if name = b!"DartMeasurement" then
    match attr l b!"type" with
    | some type => measured body fun text => .data { kind := kindOf type, name := (attr l b!"name").getD [], content := text, encoding := (attr l b!"encoding").getD b!"none", compression := (attr l b!"compression").getD b!"none" }
    | none =>
      if (attr l b!"name").isSome ∨ (attr l b!"encoding").isSome ∨ (attr l b!"compression").isSome then .undefined
      else skipped body
  else if name = b!"DartMeasurementFile" then
    measured body fun text => .file { type := (attr l b!"type").getD b!"text/plain", name := (attr l b!"name").getD b!"unknown", fileName := text }
  else skipped body

/-- What the content of the document element stands for: the measurements in order, unless something goes wrong first. -/
def readForest : Forest → Read
  | .nil => .measurements []
  | .text _ r => readForest r
  | .element n l b r =>
    match readElement n l b with
    | .measurements ms => match readForest r with
      | .measurements ms' => .measurements (ms ++ ms')
      | e => e
    | e => e

/-- A result of reading is as described. -/
def Outcome (r : Except Fault (List Meas)) : Read → Prop
  | .measurements ms => r = .ok ms
  | .assertion => ∃ m, r = .error (.assertFail m)
  | .undefined => IsUB r

end Verif.Xml.Spec
