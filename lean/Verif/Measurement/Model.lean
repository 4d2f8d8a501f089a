import Verif.Base64.Model

/-!
# Model of `TestingFramework/tfMeasurement.{h,cpp}`

Measurements, their text form, their data cache and their equality.  A block of memory obtained by
`malloc` is a list of cells; a cell is `none` while nothing was written to it.  `malloc` is
taken to succeed and to return a non-null pointer also for size 0 (as glibc does).
-/

namespace Verif.Measurement

open Verif.Base64 (isBase64 decode encode)

/-- A byte of memory; `none` is an indeterminate value. -/
abbrev Cell := Option UInt8

/-- The concrete numeric classes, tfMeasurement.h:453-603. -/
inductive NumKind where
  | integer | float | double | boolean
  deriving DecidableEq, Repr

/-- The concrete data classes, tfMeasurement.h:354-603. -/
inductive Kind where
  | plain | string | num (k : NumKind)
  deriving DecidableEq, Repr

/-- The static members `type` of the concrete classes, tfMeasurement.cpp:49-56. -/
def Kind.typeName : Kind → Str
  | .plain => b!"text/plain"
  | .string => b!"text/string"
  | .num .integer => b!"numeric/integer"
  | .num .float => b!"numeric/float"
  | .num .double => b!"numeric/double"
  | .num .boolean => b!"numeric/boolean"

/-- A `DataMeasurement` (with the `content` of `TextData`/`NumericData`), tfMeasurement.h:223-448.
`data` is the pointer `data` with the `dataSize` cells behind it; `dataSize` is only read when
`data` is not null. -/
structure DataM where
  kind : Kind
  name : Str := []
  content : Str := []
  encoding : Str := b!"none"
  compression : Str := b!"none"
  escape : Bool := true
  data : Option (List Cell) := none
  deriving DecidableEq, Repr

/-- A `MeasurementFile`, tfMeasurement.h:150-214. -/
structure FileM where
  type : Str := []
  name : Str := []
  fileName : Str := []
  escape : Bool := true
  deriving DecidableEq, Repr

/-- A measurement object. -/
inductive Meas where
  | data (d : DataM)
  | file (f : FileM)
  deriving DecidableEq, Repr

/-- `CreateDataMeasurement`, tfMeasurement.cpp:65-80; `none` is the null pointer. -/
def createDataMeasurement (type : Str) : Option DataM :=
  if type = b!"text/plain" then some { kind := .plain }
  else if type = b!"text/string" then some { kind := .string }
  else if type = b!"numeric/integer" then some { kind := .num .integer }
  else if type = b!"numeric/float" then some { kind := .num .float }
  else if type = b!"numeric/double" then some { kind := .num .double }
  else if type = b!"numeric/boolean" then some { kind := .num .boolean }
  else none

/-- `GetAttributeName`. tfMeasurement.cpp:100-102 -/
def Meas.name : Meas → Str
  | .data d => d.name
  | .file f => f.name

/-- `SetAttributeName`. tfMeasurement.cpp:86-88 -/
def Meas.setName (n : Str) : Meas → Meas
  | .data d => .data { d with name := n }
  | .file f => .file { f with name := n }

/-- `GetAttributeType`: fixed by the class for data, a member for files
(tfMeasurement.h:368,395,471,508,544,583; tfMeasurement.cpp:199-201). -/
def Meas.type : Meas → Str
  | .data d => d.kind.typeName
  | .file f => f.type

/-- `GetContent`: the stored text, or the file name (tfMeasurement.h:343,424, tfMeasurement.cpp:219-221). -/
def Meas.content : Meas → Str
  | .data d => d.content
  | .file f => f.fileName

/-- `GetElementTypeName`, tfMeasurement.cpp:60,63,203-205,349-351. -/
def Meas.element : Meas → Str
  | .data _ => b!"DartMeasurement"
  | .file _ => b!"DartMeasurementFile"

/-- `GetApplyEscapeSequences`, tfMeasurement.cpp:104-106. -/
def Meas.escape : Meas → Bool
  | .data d => d.escape
  | .file f => f.escape

/-! ## Printing -/

/-- `str.find_first_of("&<>", j)` on the rest of the string from `j` on. -/
def findSpecial : Str → Nat → Option Nat
  | [], _ => none
  | c :: rest, base => if c = 38 ∨ c = 60 ∨ c = 62 then some base else findSpecial rest (base + 1)

/-- The loop of `ApplyEscapeSequences` and the final append, tfMeasurement.cpp:127-140.  `i = none` is `npos`;
`str.append(str, j, i - j)` with `i = npos` appends everything from `j` on. -/
def escapeLoop (str : Str) : Nat → Nat → Option Nat → Str → Except Fault Str
  | 0, _, _, _ => .error .fuel
  | _ + 1, j, none, result => .ok (result ++ str.drop j)
  | fuel + 1, j, some i, result =>
    let result := result ++ (str.drop j).take (i - j)
    match str[i]? with
    | none => .error (.ub "str[i] out of range")
    | some c =>
      let result := result ++
        (if c = 38 then b!"&amp;" else if c = 60 then b!"&lt;" else if c = 62 then b!"&gt;" else [])
      escapeLoop str fuel (i + 1) (findSpecial (str.drop (i + 1)) (i + 1)) result

/-- `Measurement::ApplyEscapeSequences`, tfMeasurement.cpp:120-141.  The early return tests
`i == str.length()`, which `find_first_of` never returns. -/
def applyEscapeSequences (str : Str) : Except Fault Str :=
  if findSpecial str 0 = some str.length then .ok str
  else escapeLoop str (str.length + 1) 0 (findSpecial str 0) []

/-- `PrintStartTag` of files and data, tfMeasurement.cpp:318-322, 487-497. -/
def Meas.startTag : Meas → Str
  | .file f => b!"<" ++ (Meas.file f).element ++ b!" name=\"" ++ f.name ++ b!"\" type=\"" ++ f.type ++ b!"\">"
  | .data d => b!"<" ++ (Meas.data d).element ++ b!" name=\"" ++ d.name ++ b!"\" type=\"" ++ d.kind.typeName ++ b!"\""
      ++ (if d.encoding ≠ b!"none" then b!" encoding=\"" ++ d.encoding ++ b!"\"" else [])
      ++ (if d.compression ≠ b!"none" then b!" compression=\"" ++ d.compression ++ b!"\"" else [])
      ++ b!">"

/-- `PrintContent`, tfMeasurement.cpp:161-168. -/
def Meas.printContent (m : Meas) : Except Fault Str :=
  if m.escape then applyEscapeSequences m.content else .ok m.content

/-- `PrintEndTag`, tfMeasurement.cpp:170-172. -/
def Meas.endTag (m : Meas) : Str := b!"</" ++ m.element ++ b!">"

/-- `Measurement::Print`, tfMeasurement.cpp:144-148. -/
def Meas.print (m : Meas) : Except Fault Str := do
  let c ← m.printContent
  return m.startTag ++ c ++ m.endTag

/-! ## The data cache -/

/-- Writing bytes at the start of a block; writing past its end is undefined behaviour. -/
def overlay (written : Str) (block : List Cell) : Except Fault (List Cell) :=
  if written.length ≤ block.length then .ok (written.map some ++ block.drop written.length)
  else .error (.ub "write past the end of a heap block")

/-- `SetContent` of text and numeric data, tfMeasurement.h:342,423. -/
def DataM.setContent (d : DataM) (s : Str) : DataM := { d with content := s, data := none }

/-- `SetAttributeEncoding`, tfMeasurement.cpp:354-356: the cache is left alone. -/
def DataM.setEncoding (d : DataM) (e : Str) : DataM := { d with encoding := e }

/-- `SetAttributeCompression`, tfMeasurement.cpp:366-368: the cache is left alone. -/
def DataM.setCompression (d : DataM) (c : Str) : DataM := { d with compression := c }

/-- `UpdateContentAsData`, tfMeasurement.cpp:379-409: the object afterwards, and how the call ended. -/
def DataM.update (d : DataM) : DataM × Except Fault Unit :=
  let d := { d with data := none }
  if d.encoding = b!"none" then (d, .ok ())
  else if d.encoding = b!"base64" then
    match isBase64 false d.content with
    | .error f => (d, .error f)
    | .ok n =>
      if n ≠ 0 then
        let r := decode false d.content
        match overlay r.written (List.replicate n none) with
        | .error f => (d, .error f)
        | .ok block => ({ d with data := some block }, r.outcome.map fun _ => ())
      else (d, .ok ())
  else (d, .ok ())

/-- `GetContentAsData`, tfMeasurement.cpp:418-425: the memory behind the returned pointer, as far as
`GetContentAsDataSize` tells its size. -/
def DataM.getData (d : DataM) : DataM × Except Fault (List Cell) :=
  match d.data with
  | some block => (d, .ok block)
  | none =>
    match d.update with
    | (d', .error f) => (d', .error f)
    | (d', .ok ()) =>
      match d'.data with
      | some block => (d', .ok block)
      | none => (d', .ok (d'.content.map some))

/-- `GetContentAsDataSize`, tfMeasurement.cpp:427-434. -/
def DataM.getSize (d : DataM) : DataM × Except Fault Nat :=
  match d.data with
  | some block => (d, .ok block.length)
  | none =>
    match d.update with
    | (d', .error f) => (d', .error f)
    | (d', .ok ()) =>
      match d'.data with
      | some block => (d', .ok block.length)
      | none => (d', .ok d'.content.length)

/-- `SetContentAsData(bytes, size)`, tfMeasurement.cpp:436-464.  With an unsupported compression the data is deleted
first, so that a null pointer and size 0 are encoded. -/
def DataM.setData (d : DataM) (bytes : Str) : DataM × Except Fault Unit :=
  let d := { d with data := some (bytes.map some) }
  let (d, payload) : DataM × Str :=
    if d.compression ≠ b!"none" then ({ d with data := none }, []) else (d, bytes)
  if d.encoding = b!"none" then (d, .ok ())
  else if d.encoding = b!"base64" then
    match encode true payload with
    | .error f => (d, .error f)
    | .ok s => (d.setContent s, .ok ())
  else (d, .ok ())

/-- The copy constructor, tfMeasurement.cpp:92-94, 336-338, 502, tfMeasurement.h:410. -/
def DataM.copy (d : DataM) : DataM := { d with data := none }

/-- Assignment between objects of one class, tfMeasurement.cpp:96-100, 340-347, 505-509. -/
def DataM.assign (_this : DataM) (m : DataM) : DataM := { m with data := none }

/-! ## Equality -/

/-- `memcmp(a, b, n) == 0`, deciding at the first differing byte; the value of an indeterminate cell or a read
past the end is undefined behaviour. -/
def memEq : List Cell → List Cell → Nat → Except Fault Bool
  | _, _, 0 => .ok true
  | some x :: xs, some y :: ys, n + 1 => if x = y then memEq xs ys n else .ok false
  | _, _, _ + 1 => .error (.ub "memcmp reads an indeterminate byte")

/-- `DataMeasurement::IsEqual` for two data measurements, tfMeasurement.cpp:472-484.  Both objects may change
(their caches are filled); the result is `this`, `m` and the answer. -/
def DataM.isEqual (this m : DataM) : DataM × DataM × Except Fault Bool :=
  if this.name = m.name ∧ this.kind.typeName = m.kind.typeName then
    match this.getSize with
    | (this, .error f) => (this, m, .error f)
    | (this, .ok n1) =>
      match m.getSize with
      | (m, .error f) => (this, m, .error f)
      | (m, .ok n2) =>
        if n1 = n2 then
          match m.getData with
          | (m, .error f) => (this, m, .error f)
          | (m, .ok b2) =>
            match this.getData with
            | (this, .error f) => (this, m, .error f)
            | (this, .ok b1) => (this, m, memEq b1 b2 n1)
        else (this, m, .ok false)
  else (this, m, .ok false)

/-- The files that can be opened for reading, with their bytes. -/
abbrev Files := Str → Option Str

/-- `MeasurementFile::Load`, tfMeasurement.cpp:231-300.  Reading is taken to succeed once the file is open;
the text and the binary branch deliver the same bytes on POSIX. -/
def FileM.load (files : Files) (f : FileM) : DataM :=
  match files (f.fileName.takeWhile (· ≠ 0)) with
  | none => { kind := .plain }
  | some bytes =>
    let dm := (createDataMeasurement f.type).getD { kind := .plain }
    { (dm.setData bytes).1 with name := f.name }

/-- `MeasurementFile::IsEqual` against a data measurement, tfMeasurement.cpp:302-315 (`m == *dm` is then a
comparison of two data measurements); the result is the data measurement and the answer. -/
def FileM.isEqualData (files : Files) (this : FileM) (m : DataM) : DataM × Except Fault Bool :=
  if this.name ≠ m.name ∨ this.type ≠ m.kind.typeName then (m, .ok false)
  else
    let r := m.isEqual (this.load files)
    (r.1, r.2.2)

/-- `operator==`/`IsEqual` for all pairs of classes, tfMeasurement.cpp:151-153, 302-315, 472-484. -/
def Meas.isEqual (files : Files) : Meas → Meas → Meas × Meas × Except Fault Bool
  | .data a, .data b => let r := a.isEqual b; (.data r.1, .data r.2.1, r.2.2)
  | .data a, .file g => let r := g.isEqualData files a; (.data r.1, .file g, r.2)
  | .file f, .data b => let r := f.isEqualData files b; (.file f, .data r.1, r.2)
  | .file f, .file g =>
    if f.name ≠ g.name ∨ f.type ≠ g.type then (.file f, .file g, .ok false)
    else (.file f, .file g, (g.isEqualData files (f.load files)).2)

/-! ## Numeric text -/

/-- Decimal digits of a natural number, as `operator<<` prints them in the "C" locale. -/
def natText (n : Nat) : Str :=
  if n < 10 then [UInt8.ofNat (48 + n)] else natText (n / 10) ++ [UInt8.ofNat (48 + n % 10)]

/-- `oss << v` for an `int`. -/
def intText (v : Int) : Str := if v < 0 then 45 :: natText v.natAbs else natText v.natAbs

/-- `isspace` in the "C" locale. -/
def isBlank (c : UInt8) : Bool := (9 ≤ c && c ≤ 13) || c == 32

/-- A decimal digit. -/
def isDec (c : UInt8) : Bool := 48 ≤ c && c ≤ 57

/-- The value of a sequence of decimal digits. -/
def decValue (s : Str) : Nat := s.foldl (fun acc c => acc * 10 + (c.toNat - 48)) 0

/-- The integer an `istream` reads in the "C" locale: white space is skipped, then an optional sign and the longest
run of digits; `none` when there is no digit. -/
def readInt (s : Str) : Option Int :=
  let s := s.dropWhile isBlank
  let (neg, s) : Bool × Str := match s with
    | 45 :: r => (true, r)
    | 43 :: r => (false, r)
    | _ => (false, s)
  let ds := s.takeWhile isDec
  if ds = [] then none else some (if neg then - (decValue ds : Int) else decValue ds)

/-- Largest `int`. -/
def intMax : Int := 2147483647
/-- Smallest `int`. -/
def intMin : Int := -2147483648

/-- `IntegerNumeric::GetValue`, tfMeasurement.cpp:539-544: C++11 stream extraction gives 0 when there
is nothing to read and the nearest `int` when the number is out of range. -/
def getInteger (content : Str) : Int :=
  match readInt content with
  | none => 0
  | some v => max intMin (min intMax v)

/-- `IntegerNumeric::SetValue`, tfMeasurement.cpp:546-550. -/
def DataM.setInteger (d : DataM) (v : Int) : DataM := d.setContent (intText v)

/-- `BooleanNumeric::GetValue`, tfMeasurement.cpp:592-597: false when there is nothing to read or the number is 0,
otherwise true. -/
def getBoolean (content : Str) : Bool :=
  match readInt content with
  | none => false
  | some v => v ≠ 0

/-- `BooleanNumeric::SetValue`, tfMeasurement.cpp:599-603. -/
def DataM.setBoolean (d : DataM) (b : Bool) : DataM := d.setContent (if b then b!"1" else b!"0")

/-- The conversion of a `long` to `int` in the call `in.SetValue(i)`, tfRegressionTest.cpp:495: modulo 2^32. -/
def longToInt (v : Int) : Int := (v + 2147483648) % 4294967296 - 2147483648

end Verif.Measurement
