import Verif.Itk.Names
import Verif.Decimal.Model

/-!
# The numbers on the command line of the image comparison program

The readers of `Verif.Itk.Names` as the C++ standard library (libstdc++) does it.
-/

namespace Verif.Numbers
open Verif.Measurement Verif.Decimal

/-- `std::istringstream iss( argv[i] ); iss >> x` for an `unsigned int`, itktfImageCompare.cxx:63-65, 81-83: the digits must make a number below 2^32; a minus sign
negates it modulo 2^32.  What follows the digits is not looked at. -/
def readUnsigned (arg : Str) : Option Nat :=
  match readInt (cstr arg) with
  | none => none
  | some v => if v.natAbs < 4294967296 then some (v % 4294967296).toNat else none

/-- `std::istringstream iss( argv[i] ); iss >> x` for a `double`, itktfImageCompare.cxx:45-47: `fail()` if there is no number, or if it is too large.  What follows the
number is not looked at. -/
def readReal (arg : Str) : Option ℚ :=
  match convert (field ((cstr arg).dropWhile isBlank)) with
  | none => none
  | some q => if double.nearest |q| ≤ double.max then some (if q < 0 then -double.nearest |q| else double.nearest |q|) else none

/-- The readers of itktfImageCompare.cxx. -/
def readers : Itk.Readers := ⟨readReal, readUnsigned⟩

end Verif.Numbers
