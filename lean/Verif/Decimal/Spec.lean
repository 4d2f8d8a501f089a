import Verif.Measurement.Spec
import Mathlib.Algebra.Order.Field.Rat
import Mathlib.Algebra.Order.Ring.Abs

/-!
# Decimal notation and its accuracy, independently of the code
-/

namespace Verif.Decimal.Spec
open Verif.Measurement.Spec

/-- Decimal digits only. -/
def Digits (s : Str) : Prop := ∀ c ∈ s, 48 ≤ c ∧ c ≤ 57

/-- The number with a sign. -/
def signed (neg : Bool) (q : ℚ) : ℚ := if neg then -q else q

/-- An exponent, or nothing. -/
def Exponent (s : Str) (x : Int) : Prop :=
  (s = [] ∧ x = 0) ∨ ∃ ds, Digits ds ∧ ds ≠ [] ∧ ((s = b!"e+" ++ ds ∧ x = horner ds) ∨ (s = b!"e-" ++ ds ∧ x = -(horner ds : Int)))

/-- The text is the number `q` in decimal notation: an optional minus sign, digits, an optional fraction, an optional exponent. -/
def Notation (s : Str) (q : ℚ) : Prop :=
  ∃ (neg : Bool) (ip fp es : Str) (x : Int), ip ≠ [] ∧ Digits ip ∧ Digits fp ∧ Exponent es x ∧
    s = (if neg then b!"-" else []) ++ ip ++ (if fp = [] then [] else b!"." ++ fp) ++ es ∧
    q = signed neg (horner (ip ++ fp) * 10 ^ (x - fp.length))

/-- `e` is the decimal exponent of `q`: the position of its first digit. -/
def Leading (q : ℚ) (e : Int) : Prop := (10 : ℚ) ^ e ≤ |q| ∧ |q| < 10 ^ (e + 1)

/-- `w` is `q` rounded to `p` significant decimal digits: no multiple of the unit of the last of them is closer to `q`. -/
def Rounded (p : Nat) (q w : ℚ) : Prop :=
  ∃ e : Int, Leading q e ∧ (∃ k : Int, w = k * 10 ^ (e + 1 - p)) ∧ ∀ j : Int, |w - q| ≤ |j * 10 ^ (e + 1 - p) - q|

/-- `w` is `q` rounded to `p` significant decimal digits, to the even one of two nearest: no multiple of the unit of the last digit is closer, and if
another is as close, `w` is the even multiple. -/
def RoundedEven (p : Nat) (q w : ℚ) : Prop :=
  ∃ e k : Int, Leading q e ∧ w = k * 10 ^ (e + 1 - p) ∧
    ∀ j : Int, |w - q| ≤ |j * 10 ^ (e + 1 - p) - q| ∧ (|w - q| = |j * 10 ^ (e + 1 - p) - q| → j = k ∨ k % 2 = 0)

/-- The text is the number `w` in the general form for `p` digits: a minus sign if it is negative, digits, and a fraction if there is one, with no
superfluous zeros; and, exactly if the number is less than 10^-4 or at least 10^p, an exponent of at least two digits, after a first part of one digit
that is not 0. -/
def General (p : Nat) (s : Str) (w : ℚ) : Prop :=
  ∃ (neg : Bool) (ip fp es : Str) (x : Int), ip ≠ [] ∧ Digits ip ∧ Digits fp ∧
    s = (if neg then b!"-" else []) ++ ip ++ (if fp = [] then [] else b!"." ++ fp) ++ es ∧
    w = signed neg (horner (ip ++ fp) * 10 ^ (x - fp.length)) ∧
    fp.getLast? ≠ some 48 ∧ (ip.head? = some 48 → ip.length = 1) ∧
    if (10 : ℚ) ^ (-4 : Int) ≤ |w| ∧ |w| < 10 ^ p then es = [] ∧ x = 0
    else ip.length = 1 ∧ ip.head? ≠ some 48 ∧
      ∃ ds, Digits ds ∧ 2 ≤ ds.length ∧ (ds.head? = some 48 → ds.length = 2) ∧ horner ds = x.natAbs ∧ es = (if x < 0 then b!"e-" else b!"e+") ++ ds

/-- `q` is a number of a binary format with `prec` digits and exponents (of the last digit) from `emin` to `emax`. -/
def Representable (prec : Nat) (emin emax : Int) (q : ℚ) : Prop :=
  ∃ (m : Nat) (e : Int), m < 2 ^ prec ∧ emin ≤ e ∧ e ≤ emax ∧ |q| = m * 2 ^ e

/-- A `float`. -/
def IsFloat (q : ℚ) : Prop := Representable 24 (-149) 104 q

/-- A `double`. -/
def IsDouble (q : ℚ) : Prop := Representable 53 (-1074) 971 q

end Verif.Decimal.Spec
