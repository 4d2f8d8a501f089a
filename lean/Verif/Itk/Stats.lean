import Verif.Itk.Ieee

/-!
# The statistics of the difference filter: number of pixels, total and mean magnitude
-/

namespace Verif.Itk.Any
open Verif.Decimal

section
variable {V R O K : Type} [LinearOrder K] (X : PixelType V R O K)

/-- `m_TotalMagnitude`, itktfDifferenceImageFilter.txx:235: the sums of the threads, added one after the other to zero. -/
def totalMagnitude (n : Nat) (s : Shared O K) : Option K := (List.range n).foldl (fun acc t => X.add acc (s.sums t)) X.noMagnitude

/-- The statistics the filter offers, itktfDifferenceImageFilter.h:141-143. -/
structure Statistics (K : Type) where
  mean : Option K
  total : Option K
  number : Nat

/-- The filter object, itktfDifferenceImageFilter.h:164-180.  The temporaries of the threads are not part of it: they are initialised before each run
(itktfDifferenceImageFilter.txx:97-108), see `before`. -/
structure FilterObject (K : Type) where
  params : Params K
  statistics : Statistics K

/-- The constructor, itktfDifferenceImageFilter.txx:36-51. -/
def FilterObject.new : FilterObject K where
  params := { threshold := X.noMagnitude, radius := 0, ignoreBoundary := false }
  statistics := ⟨X.noMagnitude, X.noMagnitude, 0⟩

/-- `AfterThreadedGenerateData`, itktfDifferenceImageFilter.txx:229-247; `div` is the division of a magnitude by the number of pixels of the requested region
of the output, which is the region of the valid image. -/
def after (div : Option K → Nat → Option K) (n : Nat) (r : Region) (s : Shared O K) : Statistics K :=
  ⟨div (totalMagnitude X n s) r.pixels.length, totalMagnitude X n s, totalCount n s⟩

/-- A run of the filter, `UpdateLargestPossibleRegion` (whether the pipeline of ITK finds it necessary is not modelled): the object and the output image. -/
def FilterObject.update (div : Option K → Nat → Option K) (T : Threads O) (valid test : Image V) (o : FilterObject K) : FilterObject K × Except Fault (Index → O) :=
  if test.region.contains valid.region then
    match run X o.params valid test (before X T.memory) T.sched with
    | .error f => (o, .error f)
    | .ok s => ({ o with statistics := after X div T.n valid.region s }, .ok s.out)
  else (o, .error (.thrown "InvalidRequestedRegionError"))

end

/-! ## `double` -/

/-- `m_TotalMagnitude / numberOfPixels`, itktfDifferenceImageFilter.txx:246: the number is converted to `double`. -/
def fpDivide : Option (WithTop ℚ) → Nat → Option (WithTop ℚ)
  | none, _ => none
  | some ⊤, _ => some ⊤
  | some (a : ℚ), n => if n = 0 then (if a = 0 then none else some ⊤) else some (double.round (a / double.nearest n))

/-- The square root of a number from `1` to below `4` times a power of four, as a multiple of the last digit of its result: the nearest integer to the
root of `y`. -/
def rootDigits (y : ℚ) : Int :=
  let k : Int := Nat.sqrt y.floor.toNat
  if (2 * k + 1) * (2 * k + 1) < 4 * y then k + 1
  else if (2 * k + 1) * (2 * k + 1) = 4 * y ∧ k % 2 = 1 then k + 1 else k

/-- The exponent of the last digit of the root of a positive number. -/
def rootExp (x : ℚ) : Int := Int.log 2 x / 2 - 52

/-- `vcl_sqrt` of a finite `double`, correctly rounded as IEEE 754 demands. -/
def rootOf (x : ℚ) : ℚ := if x ≤ 0 then 0 else rootDigits (x / 4 ^ rootExp x) * 2 ^ rootExp x

/-- `vcl_sqrt` of a magnitude, itktfDifferenceImageFilter.txx:201. -/
def fpRoot : Option (WithTop ℚ) → Option (WithTop ℚ)
  | none => none
  | some ⊤ => some ⊤
  | some (x : ℚ) => some (rootOf x : ℚ)

end Verif.Itk.Any
