import Verif.Itk.ProgramSpec
import Verif.Numbers.Spec

/-!
# When images of `double`s count as the same, without rounding
-/

namespace Verif.Itk.Spec
open Verif.Numbers.Spec (RoundedTo)
open Verif.Regression Verif.Measurement

/-- A pixel that differs in the valid and the test image: both have a number there, and every number of the test image within the radius is further away than the tolerance. -/
def FarApart (tolerance : ℚ) (radius : Nat) (valid test : Image) (p : Index) : Prop :=
  ∃ c x, valid.pixel p = some c ∧ test.pixel p = some x ∧ ∀ q y, Inside test.region q → Near radius p q → test.pixel q = some y → tolerance < |c - y|

/-- The same with the difference rounded to `double`. -/
def FarApartRounded (tolerance : ℚ) (radius : Nat) (valid test : Image) (p : Index) : Prop :=
  ∃ c x, valid.pixel p = some c ∧ test.pixel p = some x ∧ ∀ q y d, Inside test.region q → Near radius p q → test.pixel q = some y → RoundedTo 53 (-1074) |c - y| d → tolerance < d

/-- A test image is the valid one up to the tolerances, without any rounding: the same size and spacing, an origin made of numbers, and at most twice the tolerated number of pixels that differ. -/
def AlikeExactly (t : ImgTol) (valid test : Image) : Prop :=
  valid.region.size = test.region.size ∧ differVec valid.spacing test.spacing = false ∧ differVec valid.origin valid.origin = false ∧
    count valid.region (FarApart t.intensity t.radius valid test) ≤ 2 * t.pixels

/-- All numbers of the image are whole numbers below 2^52 (the pixels of images of any integer type up to 32 bits, and more), or multiples of another power of two below 2^52 times it. -/
def WholeNumbers (s : Int) (i : Image) : Prop := ∀ p x, i.pixel p = some x → ∃ k : Int, |k| < 2 ^ 52 ∧ x = k * 2 ^ s

/-- The same as `AllPass`, without rounding. -/
def AllPassExactly (I : Toolkit) (w : World) (dirs : List Str) (bs : List Meas) (l : List (ImgTol × Str)) : Prop :=
  ∀ (k : Nat) (t : ImgTol) (file : Str), l[k]? = some (t, file) → ∃ b recorded last place v x, bs[k]? = some b ∧ NamesImage k b recorded ∧ LastComponent recorded last ∧
    LookedUp w.fs last dirs place ∧ I.read w place = some v ∧ I.read w file = some x ∧ AlikeExactly t v.image x.image

open Classical in
/-- The number of images of the second list that are not recorded at their position of the first, under the same name and the same up to the tolerances, without rounding. -/
noncomputable def unlikeExactly (t : ImgTol) : List (Str × Image) → List (Str × Image) → Nat
  | _, [] => 0
  | [], _ :: ys => 1 + unlikeExactly t [] ys
  | x :: xs, y :: ys => (if x.1 = y.1 ∧ AlikeExactly t x.2 y.2 then 0 else 1) + unlikeExactly t xs ys

end Verif.Itk.Spec
