import Verif.Path.Model
import Verif.Regression.Model

/-!
# Model of `itktfRegression.{h,cxx}` and `itktfImageCompare.cxx`

The generated file names, the compound measurements and the image comparison program.
-/

namespace Verif.Itk
open Verif.Regression Verif.Measurement

/-- The data members for generated names, itktfRegression.h:313-315: the arguments of `Main` and the number of names generated.  `Main`
(itktfRegression.cxx:84-93) replaces the arguments and keeps the number. -/
structure Names where
  args : List Str := []
  count : UInt32 := 0

/-- One step of the hash, itktfRegression.cxx:63-67: the sum is computed in `int` and cut to 16 bits; `char` is signed. -/
def hashStep (h : UInt16) (c : UInt8) : UInt16 := ((h <<< 7) ||| (h >>> 9)) ^^^ c.toInt8.toInt16.toUInt16

/-- The hash of the arguments, itktfRegression.cxx:52-67. -/
def hashArgs (args : List Str) : UInt16 := (args.foldl (· ++ ·) []).foldl hashStep 0xfb73

/-- A hexadecimal digit as `std::hex` prints it. -/
def hexDigit (n : Nat) : UInt8 := if n < 10 then UInt8.ofNat (48 + n) else UInt8.ofNat (87 + n)

/-- `std::hex << n`. -/
def hexText (n : Nat) : Str := if n < 16 then [hexDigit n] else hexText (n / 16) ++ [hexDigit (n % 16)]

/-- `GenerateFileName`, itktfRegression.cxx:48-82.  `front()` of an empty list is undefined; `std::hex` stays in force for the number. -/
def Names.generate (s : Names) (ext root : Str) : Names × Except Fault Str :=
  match s.args with
  | [] => (s, .error (.ub "front() of an empty list"))
  | a :: _ =>
    let count := s.count + 1
    let name := a ++ b!"_" ++ hexText (hashArgs s.args).toNat ++ b!"_" ++ hexText count.toNat ++ b!"." ++ ext
    ({ s with count := count }, .ok (if root ≠ [] then Path.append root name else name))

/-- Names generated one after the other, for the given extensions and root paths. -/
def Names.generateAll (s : Names) : List (Str × Str) → Except Fault (List Str)
  | [] => .ok []
  | (ext, root) :: rest =>
    match s.generate ext root with
    | (_, .error f) => .error f
    | (s, .ok n) => match s.generateAll rest with
      | .error f => .error f
      | .ok ns => .ok (n :: ns)

/-! ## Compound measurements -/

/-- A sequence of calls whose results are added up; `k` gets the sum. -/
def sumCalls : List Call → Int → (Int → Prog) → Prog
  | [], acc, k => k acc
  | c :: cs, acc, k => .call c fun r => sumCalls cs (acc + r) k

/-- `nameWithIndex << name << "_" << i`. -/
def indexed (name : Str) (i : Nat) : Str := name ++ b!"_" ++ natText i

/-- The calls of the loop in `MeasurementInsightSize` and `MeasurementInsightIndex`, itktfRegression.h:98-104, 112-118: from element
`i` on.  (The values are `unsigned long` and `long`; they are passed as `long`.) -/
def integerLoop (name : Str) (tolerant : Bool) : Nat → List Int → List Call
  | _, [] => []
  | i, v :: vs => .integer v (indexed name i) tolerant :: integerLoop name tolerant (i + 1) vs

/-- The calls of the loop in `MeasurementInsightPoint`, `...Vector` and `...FixedArray`, itktfRegression.h:134-141, 147-154, 160-167.  The
texts of the numbers are given (see `Call`). -/
def doubleLoop (name : Str) (tolerant : Bool) : Nat → List Str → List Call
  | _, [] => []
  | i, v :: vs => .double v (indexed name i) tolerant :: doubleLoop name tolerant (i + 1) vs

/-- `MeasurementInsightSize` and `MeasurementInsightIndex`, itktfRegression.h:93-121. -/
def insightIntegers (values : List Int) (name : Str) (tolerant : Bool) (k : Int → Prog) : Prog :=
  sumCalls (integerLoop name tolerant 0 values) 0 k

/-- `MeasurementInsightPoint`, `MeasurementInsightVector`, `MeasurementInsightFixedArray`, itktfRegression.h:131-168. -/
def insightDoubles (texts : List Str) (name : Str) (tolerant : Bool) (k : Int → Prog) : Prog :=
  sumCalls (doubleLoop name tolerant 0 texts) 0 k

/-- `MeasurementInsightRegion`, itktfRegression.h:123-129. -/
def insightRegion (index size : List Int) (name : Str) (tolerant : Bool) (k : Int → Prog) : Prog :=
  insightIntegers index (name ++ b!" Index") tolerant fun a =>
    insightIntegers size (name ++ b!" Size") tolerant fun b => k (0 + a + b)

/-- The calls of the outer loop of `MeasurementInsightMatrix`, itktfRegression.h:174-182, from row `i` on; the inner loop
extends the name of the row. -/
def matrixLoop (name : Str) (tolerant : Bool) : Nat → List (List Str) → List Call
  | _, [] => []
  | i, row :: rows => doubleLoop (indexed name i) tolerant 0 row ++ matrixLoop name tolerant (i + 1) rows

/-- `MeasurementInsightMatrix`, itktfRegression.h:170-184. -/
def insightMatrix (rows : List (List Str)) (name : Str) (tolerant : Bool) (k : Int → Prog) : Prog :=
  sumCalls (matrixLoop name tolerant 0 rows) 0 k

/-! ## The image comparison program -/

/-- Reading numbers from a string, `iss >> x`; `none` when `iss.fail()`. -/
structure Readers where
  real : Str → Option ℚ
  unsigned : Str → Option Nat

/-- The loop of `Test`, itktfImageCompare.cxx:28-109: the tolerances so far, the number of the next image, the arguments left.  An
empty argument is a file name: `argvi[0]` is 0. -/
def imageLoop (rd : Readers) : ImgTol → Nat → List Str → Prog
  | _, _, [] => .ret 0
  | t, n, a :: rest =>
    if a.head? = some 45 then
      if a = b!"--intensityTolerance" then
        match rest with
        | [] => .ret 1
        | v :: rest => match rd.real v with
          | none => .ret 1
          | some x => imageLoop rd { t with intensity := x } n rest
      else if a = b!"--numberOfPixelTolerance" then
        match rest with
        | [] => .ret 1
        | v :: rest => match rd.unsigned v with
          | none => .ret 1
          | some x => imageLoop rd { t with pixels := x } n rest
      else if a = b!"--radiusTolerance" then
        match rest with
        | [] => .ret 1
        | v :: rest => match rd.unsigned v with
          | none => .ret 1
          | some x => imageLoop rd { t with radius := x } n rest
      else .ret 1
    else
      .setImageTolerance t <| .call (.fileITK a (b!"ImageFile" ++ natText n)) fun _ => imageLoop rd t (n + 1) rest

/-- `Test`, itktfImageCompare.cxx:9-111.  `EXIT_SUCCESS` is 0, `EXIT_FAILURE` is 1. -/
def imageTest (rd : Readers) (argv : List Str) : Prog := imageLoop rd {} 0 (argv.drop 1)

end Verif.Itk
