import Verif.Xml.Model

/-!
# What the baseline reader writes to the error stream, tfRegressionTest.cpp:621-695, 725-784

The functions below are those of `Verif/Xml/Model.lean` with the lines written to `std::cerr` kept, in order.  The line number and the text of
the error of the parser are parameters.
-/

namespace Verif.Xml
open Verif.Measurement Verif.Regression

/-- What has been written to `std::cerr`, and the outcome. -/
abbrev Said (α : Type) := List Str × Except Fault α

/-- One thing after the other. -/
def Said.andThen {α β : Type} (r : Said α) (f : α → Said β) : Said β :=
  match r with
  | (ms, .error e) => (ms, .error e)
  | (ms, .ok a) => (ms ++ (f a).1, (f a).2)

/-- The loop that creates the measurement, tfRegressionTest.cpp:639-648. -/
def createLoopM : List (Str × Str) → Option DataM → List Str × Option DataM
  | [], dm => ([], dm)
  | (a, v) :: rest, dm =>
    if a = b!"type" then
      match createDataMeasurement v with
      | none =>
        let r := createLoopM rest (some { kind := .plain })
        ((b!"XML: unknow dart measurement type \"" ++ v ++ b!"\"\n") :: r.1, r.2)
      | some d => createLoopM rest (some d)
    else createLoopM rest dm

/-- The loop that sets the attributes of a data measurement, tfRegressionTest.cpp:652-663. -/
def dataAttributesM : List (Str × Str) → Option DataM → Said (Option DataM)
  | [], dm => ([], .ok dm)
  | (a, v) :: rest, dm =>
    if a = b!"name" then
      match dm with
      | none => ([], .error (.ub "SetAttributeName on a null pointer"))
      | some d => dataAttributesM rest (some { d with name := v })
    else if a = b!"type" then dataAttributesM rest dm
    else if a = b!"encoding" then
      match dm with
      | none => ([], .error (.ub "SetAttributeEncoding on a null pointer"))
      | some d => dataAttributesM rest (some (d.setEncoding v))
    else if a = b!"compression" then
      match dm with
      | none => ([], .error (.ub "SetAttributeCompression on a null pointer"))
      | some d => dataAttributesM rest (some (d.setCompression v))
    else
      let r := dataAttributesM rest dm
      ((b!"XML: unknow attribute \"" ++ a ++ b!"\"\n") :: r.1, r.2)

/-- The loop that sets the attributes of a file measurement, tfRegressionTest.cpp:675-683. -/
def fileAttributesM : List (Str × Str) → FileM → List Str × FileM
  | [], f => ([], f)
  | (a, v) :: rest, f =>
    if a = b!"name" then fileAttributesM rest { f with name := v }
    else if a = b!"type" then fileAttributesM rest { f with type := v }
    else
      let r := fileAttributesM rest f
      ((b!"XML: unknow attribute \"" ++ a ++ b!"\"\n") :: r.1, r.2)

/-- The callback `start`, tfRegressionTest.cpp:621-695. -/
def onStartM (pd : ParseData) (el : Str) (attrs : List (Str × Str)) : Said ParseData :=
  if pd.m.isSome then ([], .error (.assertFail "!pd.m"))
  else if pd.data.length ≠ 0 then ([], .error (.assertFail "pd.data.length() == 0"))
  else if pd.depth = 0 then
    (if el ≠ b!"output" then [b!"XML: expected \"output\" document element type\n"] else [], .ok { pd with depth := pd.depth + 1 })
  else if pd.depth = 1 then
    if el = b!"DartMeasurement" then
      let c := createLoopM attrs none
      Said.andThen (c.1, .ok c.2) fun dm => (dataAttributesM attrs dm).andThen fun dm =>
        ([], .ok { pd with m := dm.map .data, depth := pd.depth + 1 })
    else if el = b!"DartMeasurementFile" then
      let r := fileAttributesM attrs { type := b!"text/plain", name := b!"unknown" }
      (r.1, .ok { pd with m := some (.file r.2), depth := pd.depth + 1 })
    else ([b!"XML: unknown element type \"" ++ el ++ b!"\"\n"], .ok { pd with depth := pd.depth + 1 })
  else ([b!"XML: depth is too deep\n"], .ok { pd with depth := pd.depth + 1 })

/-- One callback. -/
def onEventM (pd : ParseData) : Event → Said ParseData
  | .start el attrs => onStartM pd el attrs
  | .stop _ => ([], .ok (onEnd pd))
  | .text s => ([], .ok (onText pd s))

/-- The callbacks made while a chunk is parsed. -/
def onEventsM : ParseData → List Event → Said ParseData
  | pd, [] => ([], .ok pd)
  | pd, e :: es => (onEventM pd e).andThen fun pd => onEventsM pd es

/-- The message about a parse error, tfRegressionTest.cpp:772-773. -/
def parseError (line why : Str) : Str := b!"XML:Parse error at line " ++ line ++ b!": \"" ++ why ++ b!"\"\n"

/-- The loop of `ReadXMLInput`, tfRegressionTest.cpp:751-779; `line` and `why` are what `XML_GetCurrentLineNumber` and `XML_ErrorString` say. -/
def readLoopM (X : Expat) (line why : X.State → Str) (size : Nat) : Nat → Str → X.State → ParseData → Said (List Meas)
  | 0, _, _, _ => ([], .error .fuel)
  | fuel + 1, rest, st, pd =>
    let buff := rest.take 1024
    let done := decide (rest.length < 1024)
    let len := if done then size % 1024 else 1024
    if buff.length < len then ([], .error (.ub "bytes that were not read"))
    else
      match X.feed st (buff.take len) done with
      | (st, es, ok) => (onEventsM pd es).andThen fun pd =>
          if ok then
            if done then ([], leave pd (.ok pd.measurements)) else readLoopM X line why size fuel (rest.drop 1024) st pd
          else ([parseError (line st) (why st)], leave pd (.error (.thrown "parse error")))

/-- `ReadXMLInput`, tfRegressionTest.cpp:725-784: what it writes to `std::cerr`, and the measurements put into `Input`. -/
def readXMLM (X : Expat) (line why : X.State → Str) (bytes : Str) : Said (List Meas) :=
  readLoopM X line why bytes.length (bytes.length / 1024 + 1) bytes X.init {}

end Verif.Xml
