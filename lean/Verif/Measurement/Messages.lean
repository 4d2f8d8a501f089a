import Verif.Measurement.Model

/-!
# What measurements write to the error stream, tfMeasurement.cpp:231-315, 379-484

The functions below are those of `Verif/Measurement/Model.lean` with the lines written to `std::cerr` kept.  The order in which the arguments of
`memcmp` are evaluated (tfMeasurement.cpp:481) is unspecified in C++; here it is from right to left.  The lines at tfMeasurement.cpp:288-290 are
written only if exceptions of the stream were switched on, which nobody does.
-/

namespace Verif.Measurement
open Verif.Base64 (isBase64 decode encode)

/-- The line about the compression, tfMeasurement.cpp:381-384, 447-448. -/
def compressionLine (d : DataM) : List Str :=
  if d.compression ≠ b!"none" then [b!"unsupported compression \"" ++ d.compression ++ b!"\" used.\n"] else []

/-- The line about the encoding, tfMeasurement.cpp:402-404, 459-460. -/
def encodingLine (d : DataM) : Str := b!"unsupported encoding \"" ++ d.encoding ++ b!"\" used.\n"

/-- `UpdateContentAsData`, tfMeasurement.cpp:379-409: what it writes, the object afterwards, and how the call ended. -/
def DataM.updateM (d : DataM) : List Str × DataM × Except Fault Unit :=
  let d := { d with data := none }
  let said := compressionLine d
  if d.encoding = b!"none" then (said, d, .ok ())
  else if d.encoding = b!"base64" then
    match isBase64 false d.content with
    | .error f => (said, d, .error f)
    | .ok n =>
      if n ≠ 0 then
        let r := decode false d.content
        match overlay r.written (List.replicate n none) with
        | .error f => (said, d, .error f)
        | .ok block => (said, { d with data := some block }, r.outcome.map fun _ => ())
      else (said ++ (if d.content.length ≠ 0 then [b!"error decodeing base64\n"] else []), d, .ok ())
  else (said ++ [encodingLine d], d, .ok ())

/-- `GetContentAsData`, tfMeasurement.cpp:418-425. -/
def DataM.getDataM (d : DataM) : List Str × DataM × Except Fault (List Cell) :=
  match d.data with
  | some block => ([], d, .ok block)
  | none =>
    match d.updateM with
    | (ms, d', .error f) => (ms, d', .error f)
    | (ms, d', .ok ()) =>
      match d'.data with
      | some block => (ms, d', .ok block)
      | none => (ms, d', .ok (d'.content.map some))

/-- `GetContentAsDataSize`, tfMeasurement.cpp:427-434. -/
def DataM.getSizeM (d : DataM) : List Str × DataM × Except Fault Nat :=
  match d.data with
  | some block => ([], d, .ok block.length)
  | none =>
    match d.updateM with
    | (ms, d', .error f) => (ms, d', .error f)
    | (ms, d', .ok ()) =>
      match d'.data with
      | some block => (ms, d', .ok block.length)
      | none => (ms, d', .ok d'.content.length)

/-- `SetContentAsData(bytes, size)`, tfMeasurement.cpp:436-464. -/
def DataM.setDataM (d : DataM) (bytes : Str) : List Str × DataM × Except Fault Unit :=
  let d := { d with data := some (bytes.map some) }
  let said := compressionLine d
  let (d, payload) : DataM × Str :=
    if d.compression ≠ b!"none" then ({ d with data := none }, []) else (d, bytes)
  if d.encoding = b!"none" then (said, d, .ok ())
  else if d.encoding = b!"base64" then
    match encode true payload with
    | .error f => (said, d, .error f)
    | .ok s => (said, d.setContent s, .ok ())
  else (said ++ [encodingLine d], d, .ok ())

/-- `DataMeasurement::IsEqual` for two data measurements, tfMeasurement.cpp:472-484. -/
def DataM.isEqualM (this m : DataM) : List Str × DataM × DataM × Except Fault Bool :=
  if this.name = m.name ∧ this.kind.typeName = m.kind.typeName then
    match this.getSizeM with
    | (s1, this, .error f) => (s1, this, m, .error f)
    | (s1, this, .ok n1) =>
      match m.getSizeM with
      | (s2, m, .error f) => (s1 ++ s2, this, m, .error f)
      | (s2, m, .ok n2) =>
        if n1 = n2 then
          match this.getSizeM with
          | (s3, this, .error f) => (s1 ++ s2 ++ s3, this, m, .error f)
          | (s3, this, .ok _) =>
            match m.getDataM with
            | (s4, m, .error f) => (s1 ++ s2 ++ s3 ++ s4, this, m, .error f)
            | (s4, m, .ok b2) =>
              match this.getDataM with
              | (s5, this, .error f) => (s1 ++ s2 ++ s3 ++ s4 ++ s5, this, m, .error f)
              | (s5, this, .ok b1) => (s1 ++ s2 ++ s3 ++ s4 ++ s5, this, m, memEq b1 b2 n1)
        else (s1 ++ s2, this, m, .ok false)
  else ([], this, m, .ok false)

/-- `MeasurementFile::Load`, tfMeasurement.cpp:231-300. -/
def FileM.loadM (files : Files) (f : FileM) : List Str × DataM :=
  match files (f.fileName.takeWhile (· ≠ 0)) with
  | none => ([b!"error opening file \"" ++ f.fileName ++ b!"\".\n"], { kind := .plain })
  | some bytes =>
    let (said, dm) : List Str × DataM := match createDataMeasurement f.type with
      | none => ([b!"Unknown measurement type \"" ++ f.type ++ b!"\".\n"], { kind := .plain })
      | some dm => ([], dm)
    let r := dm.setDataM bytes
    (said ++ r.1, { r.2.1 with name := f.name })

/-- `MeasurementFile::IsEqual` against a data measurement, tfMeasurement.cpp:302-315. -/
def FileM.isEqualDataM (files : Files) (this : FileM) (m : DataM) : List Str × DataM × Except Fault Bool :=
  if this.name ≠ m.name ∨ this.type ≠ m.kind.typeName then ([], m, .ok false)
  else
    let l := this.loadM files
    let r := m.isEqualM l.2
    (l.1 ++ r.1, r.2.1, r.2.2.2)

/-- `operator==`/`IsEqual` for all pairs of classes, tfMeasurement.cpp:151-153, 302-315, 472-484. -/
def Meas.isEqualM (files : Files) : Meas → Meas → List Str × Meas × Meas × Except Fault Bool
  | .data a, .data b => let r := a.isEqualM b; (r.1, .data r.2.1, .data r.2.2.1, r.2.2.2)
  | .data a, .file g => let r := g.isEqualDataM files a; (r.1, .data r.2.1, .file g, r.2.2)
  | .file f, .data b => let r := f.isEqualDataM files b; (r.1, .file f, .data r.2.1, r.2.2)
  | .file f, .file g =>
    if f.name ≠ g.name ∨ f.type ≠ g.type then ([], .file f, .file g, .ok false)
    else
      let l := f.loadM files
      let r := g.isEqualDataM files l.2
      (l.1 ++ r.1, .file f, .file g, r.2.2)

end Verif.Measurement
