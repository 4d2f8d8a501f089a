import Verif.Measurement.Compare
import Mathlib.Data.Int.Log
import Mathlib.Data.Rat.Floor

/-!
# Model of the text of floating point numbers

`FloatNumeric::SetValue`, `DoubleNumeric::SetValue` (tfMeasurement.cpp:563-568, 581-586) write a number with `operator<<` and a precision of 7
and 16 digits; `GetValue` (tfMeasurement.cpp:556-561, 574-579) reads it with `operator>>`.  The model of the two operators follows the C++
standard ("C" locale, no format flags set): writing is `printf("%.*g")` with exact decimal rounding, ties to even, as in glibc; reading
collects the characters of a number (`num_get`), and converts them, to the nearest number of the format, ties to even (`strtod`).  A
text that is no number is read as 0, one that is too large as the largest finite number (C++11).
-/

namespace Verif.Decimal

open Verif.Measurement (natText isDec isBlank decValue Rounding NumEnv)

/-- A `float` or `double`: sign and magnitude (a rational number, not negative), infinity, or not a number. -/
inductive Fp where
  | finite (neg : Bool) (mag : ℚ)
  | infinite (neg : Bool)
  | nan (neg : Bool)
  deriving DecidableEq

/-- Rounding to the nearest integer, ties to even. -/
def rne (x : ℚ) : Int :=
  if x - ⌊x⌋ < 1 / 2 then ⌊x⌋ else if 1 / 2 < x - ⌊x⌋ then ⌊x⌋ + 1 else if ⌊x⌋ % 2 = 0 then ⌊x⌋ else ⌊x⌋ + 1

/-- The `p` significant digits of a positive number as a natural number, and the decimal exponent of the first digit. -/
def significant (p : Nat) (q : ℚ) : Nat × Int :=
  let e := Int.log 10 q
  let n := (rne (q * 10 ^ ((p : Int) - 1 - e))).toNat
  if n = 10 ^ p then (10 ^ (p - 1), e + 1) else (n, e)

/-- The last `k` decimal digits of a number. -/
def lastDigits : Nat → Nat → Str
  | 0, _ => []
  | k + 1, n => lastDigits k (n / 10) ++ [UInt8.ofNat (48 + n % 10)]

/-- Without the zeros at the end. -/
def dropZeros : Str → Str
  | [] => []
  | c :: r => if dropZeros r = [] ∧ c = 48 then [] else c :: dropZeros r

/-- The decimal point and the fraction; nothing if there is no fraction. -/
def fraction (s : Str) : Str := if s = [] then [] else 46 :: s

/-- The exponent: a sign and at least two digits. -/
def exponentText (x : Int) : Str :=
  b!"e" ++ (if x < 0 then b!"-" else b!"+") ++ (if x.natAbs < 100 then lastDigits 2 x.natAbs else natText x.natAbs)

/-- `printf("%.pg")` of a positive number, from its significant digits and exponent. -/
def layout (p : Nat) (n : Nat) (x : Int) : Str :=
  let ds := lastDigits p n
  if -4 ≤ x ∧ x < p then
    if 0 ≤ x then ds.take (x.toNat + 1) ++ fraction (dropZeros (ds.drop (x.toNat + 1)))
    else b!"0" ++ fraction (List.replicate ((-x).toNat - 1) 48 ++ dropZeros ds)
  else ds.take 1 ++ fraction (dropZeros (ds.drop 1)) ++ exponentText x

/-- The minus sign. -/
def signText (neg : Bool) : Str := if neg then b!"-" else []

/-- `operator<<` with precision `p` (at least 1), tfMeasurement.cpp:565-566, 583-584. -/
def write (p : Nat) : Fp → Str
  | .finite neg mag => signText neg ++ (if mag = 0 then b!"0" else layout p (significant p mag).1 (significant p mag).2)
  | .infinite neg => signText neg ++ b!"inf"
  | .nan neg => signText neg ++ b!"nan"

/-- The content `FloatNumeric::SetValue` sets, tfMeasurement.cpp:563-568. -/
def floatText (v : Fp) : Str := write 7 v

/-- The content `DoubleNumeric::SetValue` sets, tfMeasurement.cpp:581-586. -/
def doubleText (v : Fp) : Str := write 16 v

/-- The characters of the exponent: an optional sign and digits. -/
def exponentField : Str → Str
  | [] => []
  | c :: r => if c = 43 ∨ c = 45 then c :: r.takeWhile isDec else (c :: r).takeWhile isDec

/-- The characters collected by `num_get` after the sign: digits, at most one decimal point, and after a digit an exponent.  `point`: there was a
decimal point; `digit`: there was a digit. -/
def mantissaField (point digit : Bool) : Str → Str
  | [] => []
  | c :: r =>
    if isDec c then c :: mantissaField point true r
    else if c = 46 ∧ ¬ point then c :: mantissaField true digit r
    else if (c = 101 ∨ c = 69) ∧ digit then c :: exponentField r
    else []

/-- The characters collected by `num_get` after white space. -/
def field : Str → Str
  | [] => []
  | c :: r => if c = 43 ∨ c = 45 then c :: mantissaField false false r else mantissaField false false (c :: r)

/-- The digits after a decimal point, and what follows. -/
def afterPoint : Str → Str × Str
  | 46 :: r => (r.takeWhile isDec, r.dropWhile isDec)
  | r => ([], r)

/-- A number `m` with the exponent that follows; none if there is an `e` without digits. -/
def withExponent (m : ℚ) : Str → Option ℚ
  | [] => some m
  | _ :: 45 :: ds => if ds = [] then none else some (m * 10 ^ (-(decValue ds : Int)))
  | _ :: 43 :: ds => if ds = [] then none else some (m * 10 ^ (decValue ds : Int))
  | _ :: ds => if ds = [] then none else some (m * 10 ^ (decValue ds : Int))

/-- A number without sign: digits with a decimal point somewhere, and an exponent.  None if there are no digits, or if there is an `e` without exponent. -/
def convertUnsigned (s : Str) : Option ℚ :=
  let ip := s.takeWhile isDec
  let (fp, es) := afterPoint (s.dropWhile isDec)
  if ip ++ fp = [] then none else withExponent (decValue (ip ++ fp) * 10 ^ (-(fp.length : Int))) es

/-- `strtod` of the collected characters, as an exact number. -/
def convert : Str → Option ℚ
  | 45 :: r => (convertUnsigned r).map (fun q => -q)
  | 43 :: r => convertUnsigned r
  | s => convertUnsigned s

/-- The exact number a text is read as, before rounding to the format; 0 if it is no number. -/
def readExact (s : Str) : ℚ := (convert (field (s.dropWhile isBlank))).getD 0

/-- A binary format: digits of the significand, least exponent of the last digit, largest exponent of the last digit. -/
structure Format where
  prec : Nat
  emin : Int
  emax : Int

/-- IEEE 754 single precision. -/
def single : Format := ⟨24, -149, 104⟩
/-- IEEE 754 double precision. -/
def double : Format := ⟨53, -1074, 971⟩

/-- The largest finite number. -/
def Format.max (F : Format) : ℚ := (2 ^ F.prec - 1) * 2 ^ F.emax

/-- The exponent of the last digit of numbers near the positive number `q`. -/
def Format.ulpExp (F : Format) (q : ℚ) : Int := Max.max (Int.log 2 q - (F.prec : Int) + 1) F.emin

/-- The nearest number of the format, if the exponent had no upper bound. -/
def Format.nearest (F : Format) (q : ℚ) : ℚ := if q ≤ 0 then 0 else rne (q / 2 ^ F.ulpExp q) * 2 ^ F.ulpExp q

/-- Rounding of a magnitude: infinity above the largest finite number. -/
def Format.round (F : Format) (q : ℚ) : WithTop ℚ := if F.nearest q ≤ F.max then F.nearest q else ⊤

/-- Reading a number of the format, tfMeasurement.cpp:557-559, 575-577. -/
def Format.read (F : Format) (s : Str) : ℚ :=
  let q := readExact s
  let m := min (F.nearest |q|) F.max
  if q < 0 then -m else m

/-- The number of a format with the value `q` (for 0 the one without sign). -/
def Fp.ofRat (q : ℚ) : Fp := .finite (decide (q < 0)) |q|

/-- `FloatNumeric::SetValue`, tfMeasurement.cpp:563-568. -/
def setFloat (d : Measurement.DataM) (v : Fp) : Measurement.DataM := d.setContent (floatText v)

/-- `DoubleNumeric::SetValue`, tfMeasurement.cpp:581-586. -/
def setDouble (d : Measurement.DataM) (v : Fp) : Measurement.DataM := d.setContent (doubleText v)

end Verif.Decimal
