import Verif.Itk.Model

/-!
# The image comparison for any type of pixels

`DifferenceImageFilter` is a template: `itktfDifferenceImageFilter.h` provides the squared norm and the zero of scalars, complex numbers and
vectors.  Here pixels have any type `V`, the differences any type `R` (`NumericTraits<...>::RealType`), the pixels of the output any type `O`, and magnitudes
are NaN (`none`) or an element of any linear order `K` (`NumericTraits<...>::ScalarRealType`), which may contain infinities.  The conversion
of a difference to the type of the output pixels may be undefined (a negative number to `unsigned char`).
-/

namespace Verif.Itk.Any

/-- What the filter uses of the pixels: itktfDifferenceImageFilter.h:31-71 and `NumericTraits`. -/
structure PixelType (V R O K : Type) where
  /-- `static_cast<RealType>(c) - t`, itktfDifferenceImageFilter.txx:163, 177. -/
  sub : V → V → R
  /-- `Math::SquaredTwoNorm`, itktfDifferenceImageFilter.h:45-71. -/
  norm2 : R → Option K
  /-- `static_cast<OutputPixelType>(minimumDifference)`, itktfDifferenceImageFilter.txx:198; `none` if it is undefined. -/
  cast : R → Option O
  /-- `Math::ZeroValue(c)`, itktfDifferenceImageFilter.h:31-43. -/
  zero : V → O
  /-- `m_MagnitudeThreshold * m_MagnitudeThreshold`. -/
  square : Option K → Option K
  /-- `+=` on magnitudes. -/
  add : Option K → Option K → Option K
  /-- `vcl_sqrt`. -/
  root : Option K → Option K
  /-- `NumericTraits<ScalarRealType>::Zero`. -/
  noMagnitude : Option K

/-- An image: a region and pixels. -/
structure Image (V : Type) where
  region : Region
  pixel : Index → V

/-- `a < b` on magnitudes: false if one is NaN. -/
def lt {K : Type} [LinearOrder K] : Option K → Option K → Bool
  | some a, some b => decide (a < b)
  | _, _ => false

/-- `a <= b` on magnitudes: false if one is NaN. -/
def le {K : Type} [LinearOrder K] : Option K → Option K → Bool
  | some a, some b => decide (a ≤ b)
  | _, _ => false

section
variable {V R O K : Type} [LinearOrder K] (X : PixelType V R O K)

/-- The values `test.GetPixel(i)`, `i = 0, 1, ...` of the neighbourhood iterator at `p`. -/
def neighbourhood (test : Image V) (r : Nat) (p : Index) : List V :=
  (offsets r p.length).map fun o => test.pixel (clamp test.region (List.zipWith (· + ·) p o))

/-- Parameters of the filter, itktfDifferenceImageFilter.h:124-138. -/
structure Params (K : Type) where
  threshold : Option K
  radius : Nat
  ignoreBoundary : Bool := false

/-- The search in the neighbourhood, itktfDifferenceImageFilter.txx:170-191. -/
def searchLoop (thr2 : Option K) (c : V) : List V → R × Option K → R × Option K
  | [], acc => acc
  | t :: ts, (d, m) =>
    let d' := X.sub c t
    let m' := X.norm2 d'
    let acc := if lt m' m then (d', m') else (d, m)
    if le acc.2 thr2 then acc else searchLoop thr2 c ts acc

/-- The smallest difference found at a pixel, itktfDifferenceImageFilter.txx:159-192. -/
def pixelDifference (P : Params K) (valid test : Image V) (p : Index) : R × Option K :=
  let thr2 := X.square P.threshold
  let c := valid.pixel p
  let d := X.sub c (test.pixel p)
  let m := X.norm2 d
  if lt thr2 m then searchLoop X thr2 c (neighbourhood test P.radius p) (d, m) else (d, m)

/-- What the threads share: the output image, and one slot per thread of the sums and counts. -/
structure Shared (O K : Type) where
  out : Index → O
  sums : Nat → Option K
  counts : Nat → Nat

/-- `BeforeThreadedGenerateData`, itktfDifferenceImageFilter.txx:92-108; the output image has arbitrary contents. -/
def before (out : Index → O) : Shared O K := ⟨out, fun _ => X.noMagnitude, fun _ => 0⟩

/-- What a thread does at a pixel, itktfDifferenceImageFilter.txx:159-207 and, for pixels on the boundary that are to be ignored,
213-224 (there with the zero of the first pixel of the face, which is that of this pixel if the zero does not depend on the pixel or only on its length). -/
def step (P : Params K) (valid test : Image V) (s : Shared O K) (e : Nat × Index) : Except Fault (Shared O K) :=
  let (tid, p) := e
  if onBoundary P.radius test.region p && P.ignoreBoundary then .ok { s with out := update s.out p (X.zero (valid.pixel p)) }
  else
    let (d, m) := pixelDifference X P valid test p
    if lt (X.square P.threshold) m then
      match X.cast d with
      | none => .error (.ub "conversion of a difference out of range")
      | some o => .ok { out := update s.out p o
                        sums := update s.sums tid (X.add (s.sums tid) (X.root m))
                        counts := update s.counts tid (s.counts tid + 1) }
    else .ok { s with out := update s.out p (X.zero (valid.pixel p)) }

/-- All threads together. -/
def run (P : Params K) (valid test : Image V) : Shared O K → Sched → Except Fault (Shared O K)
  | s, [] => .ok s
  | s, e :: sched =>
    match step X P valid test s e with
    | .error f => .error f
    | .ok s' => run P valid test s' sched

/-- `AfterThreadedGenerateData`, itktfDifferenceImageFilter.txx:229-247: the number of pixels with differences, for `n` threads. -/
def totalCount (n : Nat) (s : Shared O K) : Nat := (List.range n).foldl (fun acc t => acc + s.counts t) 0

/-- The threads of a run: their number, the schedule and the initial contents of the output memory. -/
structure Threads (O : Type) where
  n : Nat
  sched : Sched
  memory : Index → O

/-- The output image and the number of pixels with differences after `UpdateLargestPossibleRegion` of the filter; see `Itk.filterCount`. -/
def filter (P : Params K) (T : Threads O) (valid test : Image V) : Except Fault (Nat × (Index → O)) :=
  if test.region.contains valid.region then
    match run X P valid test (before X T.memory) T.sched with
    | .error f => .error f
    | .ok s => .ok (totalCount T.n s, s.out)
  else .error (.thrown "InvalidRequestedRegionError")

/-- The end of `CompareImage`, itktfRegression.h:306. -/
def beyond (pixels status : Nat) : Nat := if status < pixels then 0 else status - pixels

/-- The number of pixels with differences, reduced by the tolerated number. -/
def finish (pixels : Nat) : Except Fault (Nat × (Index → O)) → Except Fault Nat
  | .error f => .error f
  | .ok (n, _) => .ok (beyond pixels n)

/-- `CompareImage<ImageType>` of two images, itktfRegression.h:247-307, for any type of pixels. -/
def compareImage (T : Threads O) (test baseline : Image V) (intensity : Option K) (pixels radius : Nat) (region : Region) : Except Fault Nat :=
  if region ≠ Region.default test.region.length then
    if baseline.region.contains test.region then
      finish pixels (filter X { threshold := intensity, radius := radius } T { baseline with region := test.region } test)
    else .error (.thrown "extraction region outside of the image")
  else if baseline.region.size ≠ test.region.size then .ok ulongMax
  else finish pixels (filter X { threshold := intensity, radius := radius } T baseline test)

end

/-! ## Types of pixels -/

/-- `double` without infinities, as in `Itk.Model`. -/
def scalar (A : Arith) : PixelType Dbl Dbl Dbl ℚ where
  sub := A.sub
  norm2 := A.square
  cast := some
  zero := fun _ => some 0
  square := A.square
  add := A.add
  root := A.root
  noMagnitude := some 0

/-- `VariableLengthVector::GetSquaredNorm`, and `v*v` of an `itk::Vector`, itktfDifferenceImageFilter.h:49, 70: the squares are added to 0 one after the other. -/
def squaredNorm (A : Arith) (v : List Dbl) : Dbl := v.foldl (fun acc x => A.add acc (A.square x)) (some 0)

/-- Vectors of `double`, itktfDifferenceImageFilter.h:38-43, 66-71.  The subtraction of vectors of different lengths, an assertion in ITK, is not modelled. -/
def vector (A : Arith) : PixelType (List Dbl) (List Dbl) (List Dbl) ℚ where
  sub := List.zipWith A.sub
  norm2 := squaredNorm A
  cast := some
  zero := fun v => v.map fun _ => some 0
  square := A.square
  add := A.add
  root := A.root
  noMagnitude := some 0

/-- Complex numbers of `double`, itktfDifferenceImageFilter.h:59-63; `std::norm` is the sum of the squares of real and imaginary part. -/
def complex (A : Arith) : PixelType (Dbl × Dbl) (Dbl × Dbl) (Dbl × Dbl) ℚ where
  sub := fun a b => (A.sub a.1 b.1, A.sub a.2 b.2)
  norm2 := fun a => A.add (A.square a.1) (A.square a.2)
  cast := some
  zero := fun _ => (some 0, some 0)
  square := A.square
  add := A.add
  root := A.root
  noMagnitude := some 0

/-- `unsigned char`: differences are `double`, exact; the output pixels are `unsigned char` again: `CompareImage` instantiates the filter with the same type
of image for input and output, itktfRegression.h:269, 295.  The conversion of a number is defined if its integral part is one of 0 to 255. -/
def byte (A : Arith) : PixelType UInt8 ℚ UInt8 ℚ where
  sub := fun a b => (a.toNat : ℚ) - b.toNat
  norm2 := fun d => A.square (some d)
  cast := fun d => if -1 < d ∧ d < 256 then some (UInt8.ofNat d.floor.toNat) else none
  zero := fun _ => 0
  square := A.square
  add := A.add
  root := A.root
  noMagnitude := some 0

end Verif.Itk.Any
