import Verif.Itk.Stats
import Verif.Itk.AnyPixelSpec
import Verif.Numbers.Spec

/-!
# What the statistics of the difference filter are expected to be
-/

namespace Verif.Itk.Any.Spec
open Verif.Itk.Spec (Inside Near)

/-- `y` is the square root of `x > 0`, rounded to 53 binary digits: to the nearest multiple of the last one, to an even one if there are two. -/
def RoundedRoot (x y : ℚ) : Prop :=
  ∃ k u : Int, y = k * 2 ^ u ∧ 0 < k ∧ 4 ^ (u + 52) ≤ x ∧ x < 4 ^ (u + 53) ∧ (y - 2 ^ u / 2) ^ 2 ≤ x ∧ x ≤ (y + 2 ^ u / 2) ^ 2 ∧
    ((y - 2 ^ u / 2) ^ 2 = x ∨ x = (y + 2 ^ u / 2) ^ 2 → k % 2 = 0)

open Classical in
/-- The exact sum of numbers over the pixels of a region with a property. -/
noncomputable def total (r : Region) (P : Index → Prop) (μ : Index → ℚ) : ℚ := ((r.pixels.filter (fun p => P p)).map μ).sum

/-- `μ` gives, for the pixels with differences, the distance to a closest value within the radius: finite, the rounded root of the computed square. -/
def Distances (X : PixelType Fp Fp Fp (WithTop ℚ)) (P : Params (WithTop ℚ)) (valid test : Image Fp) (μ : Index → ℚ) : Prop :=
  ∀ p, Inside valid.region p → Differs X P valid test p →
    ∃ (q : Index) (x : ℚ), Closest X P.radius valid test p q ∧ distance2 X valid test p q = some (x : WithTop ℚ) ∧ RoundedRoot x (μ p)

end Verif.Itk.Any.Spec
