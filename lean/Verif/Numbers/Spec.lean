import Verif.Decimal.Spec

/-!
# Numbers in texts, independently of the code
-/

namespace Verif.Numbers.Spec
open Verif.Measurement.Spec

/-- White space in the "C" locale. -/
def Blank (c : UInt8) : Prop := c = 32 ∨ (9 ≤ c ∧ c ≤ 13)

/-- A decimal digit. -/
def Digit (c : UInt8) : Prop := 48 ≤ c ∧ c ≤ 57

/-- The text begins, after white space, with the integer `v`: a sign or none, and digits up to a character that is none. -/
def Numeral (s : Str) (v : Int) : Prop :=
  ∃ blanks sign digits rest : Str, s = blanks ++ sign ++ digits ++ rest ∧ (∀ c ∈ blanks, Blank c) ∧
    digits ≠ [] ∧ (∀ c ∈ digits, Digit c) ∧ (∀ c, rest.head? = some c → ¬ Digit c) ∧
    ((sign = b!"-" ∧ v = -(horner digits : Int)) ∨ ((sign = [] ∨ sign = b!"+") ∧ v = horner digits))

/-- The nearest number to `v` from `lo` to `hi`. -/
def Nearest (lo hi v r : Int) : Prop := lo ≤ r ∧ r ≤ hi ∧ (lo ≤ v ∧ v ≤ hi → r = v) ∧ (v < lo → r = lo) ∧ (hi < v → r = hi)

/-- The exponent of a number: a letter, a sign or none, and digits; or nothing at all. -/
def Power (s : Str) (x : Int) : Prop :=
  (s = [] ∧ x = 0) ∨ ∃ letter sign ds : Str, s = letter ++ sign ++ ds ∧ (letter = b!"e" ∨ letter = b!"E") ∧ ds ≠ [] ∧ (∀ c ∈ ds, Digit c) ∧
    ((sign = b!"-" ∧ x = -(horner ds : Int)) ∨ ((sign = [] ∨ sign = b!"+") ∧ x = horner ds))

/-- The text begins, after white space, with the number `q`: a sign or none, digits with a decimal point anywhere or nowhere, an exponent or none, up to a
character that could not go on with it.  An `e` after the digits without an exponent that follows makes it no number. -/
def Real (s : Str) (q : ℚ) : Prop :=
  ∃ (blanks sign whole point frac power rest : Str) (x : Int) (m : ℚ), s = blanks ++ sign ++ whole ++ point ++ frac ++ power ++ rest ∧ (∀ c ∈ blanks, Blank c) ∧
    (∀ c ∈ whole, Digit c) ∧ (∀ c ∈ frac, Digit c) ∧ whole ++ frac ≠ [] ∧ (point = b!"." ∨ (point = [] ∧ frac = [])) ∧ Power power x ∧
    (∀ c, rest.head? = some c → ¬ Digit c ∧ (power = [] → c ≠ 101 ∧ c ≠ 69) ∧ (power = [] → point = [] → c ≠ 46)) ∧
    m = horner (whole ++ frac) * 10 ^ (x - frac.length) ∧ ((sign = b!"-" ∧ q = -m) ∨ ((sign = [] ∨ sign = b!"+") ∧ q = m))

/-- `r` is `q` rounded to a binary format of `prec` digits, the last of them at least `2^emin`, to the even one of two nearest. -/
def RoundedTo (prec : Nat) (emin : Int) (q r : ℚ) : Prop :=
  ∃ u k : Int, emin ≤ u ∧ |q| < 2 ^ (u + prec) ∧ (u = emin ∨ 2 ^ (u + prec - 1) ≤ |q|) ∧ r = k * 2 ^ u ∧
    ∀ j : Int, |r - q| ≤ |j * 2 ^ u - q| ∧ (|r - q| = |j * 2 ^ u - q| → j = k ∨ k % 2 = 0)

end Verif.Numbers.Spec
