import Verif.Itk.AnyPixel
import Verif.Decimal.Model

/-!
# Images of IEEE doubles: the comparison with rounding, underflow, overflow, infinities and NaN
-/

namespace Verif.Itk.Any
open Verif.Decimal

/-- The value of a finite `double`. -/
def value (neg : Bool) (mag : ℚ) : ℚ := if neg then -mag else mag

/-- An exact result rounded to `double` (the sign of a zero, which has no influence on magnitudes, is not modelled). -/
def rounded (q : ℚ) : Fp :=
  match double.round |q| with
  | ⊤ => .infinite (decide (q < 0))
  | (m : ℚ) => .finite (decide (q < 0)) m

/-- The difference of two `double`s, IEEE 754; itktfDifferenceImageFilter.txx:163, 177. -/
def fpSub : Fp → Fp → Fp
  | .nan _, _ => .nan false
  | _, .nan _ => .nan false
  | .infinite a, .infinite b => if a = b then .nan false else .infinite a
  | .infinite a, .finite _ _ => .infinite a
  | .finite _ _, .infinite b => .infinite (!b)
  | .finite a x, .finite b y => rounded (value a x - value b y)

/-- `v*v`, itktfDifferenceImageFilter.h:49: a NaN, or a magnitude. -/
def fpSquare : Fp → Option (WithTop ℚ)
  | .nan _ => none
  | .infinite _ => some ⊤
  | .finite _ x => some (double.round (x * x))

/-- The sum of two magnitudes. -/
def magnitudeAdd : Option (WithTop ℚ) → Option (WithTop ℚ) → Option (WithTop ℚ)
  | some (a : ℚ), some (b : ℚ) => some (double.round (a + b))
  | some _, some _ => some ⊤
  | _, _ => none

/-- The square of the magnitude of the threshold. -/
def magnitudeSquare : Option (WithTop ℚ) → Option (WithTop ℚ)
  | some (a : ℚ) => some (double.round (a * a))
  | some ⊤ => some ⊤
  | none => none

/-- `double`, with rounding to nearest.  The threshold is given by its magnitude: only its square is used.  The square root (of the total magnitude only) is a
parameter. -/
def ieee (root : Option (WithTop ℚ) → Option (WithTop ℚ)) : PixelType Fp Fp Fp (WithTop ℚ) where
  sub := fpSub
  norm2 := fpSquare
  cast := some
  zero := fun _ => .finite false 0
  square := magnitudeSquare
  add := magnitudeAdd
  root := root
  noMagnitude := some 0

end Verif.Itk.Any
