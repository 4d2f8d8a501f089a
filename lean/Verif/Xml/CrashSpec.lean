import Verif.Xml.Spec
import Verif.Xml.RunSpec

/-!
# Interrupted recordings, and what is assumed about expat for them

A process may be killed at any moment.  What it had written by then is a beginning of what it would have written.
-/

namespace Verif.Xml.Spec
open Verif.Measurement Verif.Regression

/-- A test killed after `n` steps: what it did until then. -/
def killedAfter : Nat → Prog → Prog
  | 0, _ => .ret 0
  | _ + 1, .ret v => .ret v
  | _ + 1, .fails f => .fails f
  | n + 1, .call c k => .call c fun r => killedAfter n (k r)
  | n + 1, .act f k => .act f (killedAfter n k)
  | n + 1, .look k => .look fun w => killedAfter n (k w)
  | n + 1, .ask k => .ask fun x => killedAfter n (k x)
  | n + 1, .setTolerance t k => .setTolerance t (killedAfter n k)
  | n + 1, .setExpected t k => .setExpected t (killedAfter n k)
  | n + 1, .setImageTolerance t k => .setImageTolerance t (killedAfter n k)
  | n + 1, .setSearchPath ps k => .setSearchPath ps (killedAfter n k)
  | n + 1, .prependSearchPath p k => .prependSearchPath p (killedAfter n k)
  | n + 1, .setInFileName f k => .setInFileName f (killedAfter n k)
  | n + 1, .setOutFileName f k => .setOutFileName f (killedAfter n k)

/-- The start tag of a recorded measurement. -/
def opening (m : Meas) : Str :=
  let element := match m with | .data _ => b!"DartMeasurement" | .file _ => b!"DartMeasurementFile"
  b!"<" ++ element ++ b!" name=\"" ++ m.name ++ b!"\" type=\"" ++ m.type ++ b!"\">"

/-- The parser rejects a document of which at least two bytes are missing at the end (the last byte is the new line after the document
element, which XML does not require), after callbacks for a part of what has been given to it. -/
def RejectsTruncated (X : Expat) : Prop :=
  ∀ s es p q, Document s es → s = p ++ q → 2 ≤ q.length → ∀ chunks, Flagged chunks → bytesOf chunks = p →
    (feeds X X.init chunks).2 = false ∧ ∃ es1, es1 <+: es ∧ canon (feeds X X.init chunks).1 = canon es1

/-- Content that ends before the elements in it are closed, and the callbacks for it. -/
inductive Unfinished : Str → List Event → Prop
  | here (s : Str) (es : List Event) : Content s es → Unfinished s es
  | inside (s : Str) (es : List Event) (n as : Str) (l : List (Str × Str)) (r : Str) (es' : List Event) : Content s es → Name n → Attrs as l →
      Unfinished r es' → Unfinished (s ++ b!"<" ++ n ++ as ++ b!">" ++ r) (es ++ .start n l :: es')

/-- The parser rejects a document that ends within the content of the document element or of an element in it, after callbacks for all that
has been given to it. -/
def RejectsUnfinished (X : Expat) : Prop :=
  ∀ c n as l body bes, Comment c → Name n → Attrs as l → Unfinished body bes → ∀ chunks, Flagged chunks →
    bytesOf chunks = declaration ++ b!"\n<!--" ++ c ++ b!"-->\n<" ++ n ++ as ++ b!">" ++ body →
    (feeds X X.init chunks).2 = false ∧ canon (feeds X X.init chunks).1 = canon (.start n l :: bes)

end Verif.Xml.Spec
