import Verif.Regression.Model

/-!
# Model of the baseline reader, tfRegressionTest.cpp:608-784

expat is a parameter: a machine fed with chunks of bytes that makes callbacks.  What is assumed about it is in `Verif/Xml/Spec.lean`.
Memory that is not freed when an exception leaves the reader is the subject of `Verif/Life`.
-/

namespace Verif.Xml
open Verif.Measurement Verif.Regression

/-- A callback of the parser. -/
inductive Event where
  | start (element : Str) (attrs : List (Str × Str))
  | stop (element : Str)
  | text (data : Str)
  deriving Repr, DecidableEq

/-- A parser: its state, and what `XML_ParseBuffer` does with a chunk and the flag that it is the last: the callbacks it makes and whether
it succeeds. -/
structure Expat where
  State : Type
  init : State
  feed : State → Str → Bool → State × List Event × Bool

/-- `XMLParseData`, tfRegressionTest.cpp:611-618. -/
structure ParseData where
  depth : Int := 0
  data : Str := []
  m : Option Meas := none
  measurements : List Meas := []

/-- The loop that creates the measurement, tfRegressionTest.cpp:639-648; the last `type` counts; an unknown type gives a plain text. -/
def createLoop : List (Str × Str) → Option DataM → Option DataM
  | [], dm => dm
  | (a, v) :: rest, dm =>
    if a = b!"type" then createLoop rest (some ((createDataMeasurement v).getD { kind := .plain }))
    else createLoop rest dm

/-- The loop that sets the attributes of a data measurement, tfRegressionTest.cpp:652-663; the pointer may be null. -/
def dataAttributes : List (Str × Str) → Option DataM → Except Fault (Option DataM)
  | [], dm => .ok dm
  | (a, v) :: rest, dm =>
    if a = b!"name" then
      match dm with
      | none => .error (.ub "SetAttributeName on a null pointer")
      | some d => dataAttributes rest (some { d with name := v })
    else if a = b!"type" then dataAttributes rest dm
    else if a = b!"encoding" then
      match dm with
      | none => .error (.ub "SetAttributeEncoding on a null pointer")
      | some d => dataAttributes rest (some (d.setEncoding v))
    else if a = b!"compression" then
      match dm with
      | none => .error (.ub "SetAttributeCompression on a null pointer")
      | some d => dataAttributes rest (some (d.setCompression v))
    else dataAttributes rest dm

/-- The loop that sets the attributes of a file measurement, tfRegressionTest.cpp:675-683. -/
def fileAttributes : List (Str × Str) → FileM → FileM
  | [], f => f
  | (a, v) :: rest, f =>
    if a = b!"name" then fileAttributes rest { f with name := v }
    else if a = b!"type" then fileAttributes rest { f with type := v }
    else fileAttributes rest f

/-- The callback `start`, tfRegressionTest.cpp:621-695. -/
def onStart (pd : ParseData) (el : Str) (attrs : List (Str × Str)) : Except Fault ParseData :=
  if pd.m.isSome then .error (.assertFail "!pd.m")
  else if pd.data.length ≠ 0 then .error (.assertFail "pd.data.length() == 0")
  else if pd.depth = 1 then
    if el = b!"DartMeasurement" then
      match dataAttributes attrs (createLoop attrs none) with
      | .error f => .error f
      | .ok dm => .ok { pd with m := dm.map .data, depth := pd.depth + 1 }
    else if el = b!"DartMeasurementFile" then
      .ok { pd with m := some (.file (fileAttributes attrs { type := b!"text/plain", name := b!"unknown" })), depth := pd.depth + 1 }
    else .ok { pd with depth := pd.depth + 1 }
  else .ok { pd with depth := pd.depth + 1 }

/-- `SetContent`, tfMeasurement.cpp:215-217 and, for data, `DataM.setContent`. -/
def setContent (c : Str) : Meas → Meas
  | .data d => .data (d.setContent c)
  | .file f => .file { f with fileName := c }

/-- The callback `end`, tfRegressionTest.cpp:697-714. -/
def onEnd (pd : ParseData) : ParseData :=
  let ms := match pd.m with
    | some m => if pd.depth = 2 then pd.measurements ++ [setContent pd.data m] else pd.measurements
    | none => pd.measurements
  { depth := pd.depth - 1, data := [], m := none, measurements := ms }

/-- The callback `data`, tfRegressionTest.cpp:716-722. -/
def onText (pd : ParseData) (s : Str) : ParseData := if pd.depth = 2 then { pd with data := pd.data ++ s } else pd

/-- One callback. -/
def onEvent (pd : ParseData) : Event → Except Fault ParseData
  | .start el attrs => onStart pd el attrs
  | .stop _ => .ok (onEnd pd)
  | .text s => .ok (onText pd s)

/-- The callbacks made while a chunk is parsed. -/
def onEvents : ParseData → List Event → Except Fault ParseData
  | pd, [] => .ok pd
  | pd, e :: es => match onEvent pd e with
    | .error f => .error f
    | .ok pd => onEvents pd es

/-- Leaving `ReadXMLInput` destroys the parse data, whose destructor asserts that no measurement is unfinished,
tfRegressionTest.cpp:613. -/
def leave {α : Type} (pd : ParseData) (r : Except Fault α) : Except Fault α :=
  if pd.m.isSome then .error (.assertFail "!m") else r

/-- The loop of `ReadXMLInput`, tfRegressionTest.cpp:751-779: `rest` is what has not been read of the stream, `size` the size of the file.
`read` of 1024 bytes sets `eof` if fewer are left. -/
def readLoop (X : Expat) (size : Nat) : Nat → Str → X.State → ParseData → Except Fault (List Meas)
  | 0, _, _, _ => .error .fuel
  | fuel + 1, rest, st, pd =>
    let buff := rest.take 1024
    let done := decide (rest.length < 1024)
    let len := if done then size % 1024 else 1024
    if buff.length < len then .error (.ub "bytes that were not read")
    else
      match X.feed st (buff.take len) done with
      | (st, es, ok) =>
        match onEvents pd es with
        | .error f => .error f
        | .ok pd =>
          if ok then
            if done then leave pd (.ok pd.measurements) else readLoop X size fuel (rest.drop 1024) st pd
          else leave pd (.error (.thrown "parse error"))

/-- `ReadXMLInput`, tfRegressionTest.cpp:725-784: the measurements put into `Input`. -/
def readXML (X : Expat) (bytes : Str) : Except Fault (List Meas) :=
  readLoop X bytes.length (bytes.length / 1024 + 1) bytes X.init {}

/-- The environment with this reader. -/
def withXML (X : Expat) (env : Env) : Env := { env with readXML := readXML X }

end Verif.Xml
