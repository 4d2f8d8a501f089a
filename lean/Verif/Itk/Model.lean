import Verif.Prelude
import Mathlib.Algebra.Order.Field.Rat

/-!
# Model of the image comparison in `itktf`

`itktfDifferenceImageFilter.{h,txx}`, `CompareImage` of `itktfRegression.h` and `RegressionTestImage` of `itktfCompareVisitor.cxx`.

ITK itself (readers, iterators, the thread pool) is not modelled: an image is a region and a function from indices to pixels; the
neighbourhood iterator with the zero flux boundary condition reads the clamped index; the faces calculator and the splitting of the
region between threads only determine which thread visits which pixel in which order, and are a parameter (`Sched`).  Pixels
are `double` (`itk::Image<double, N>`), for any number N of dimensions.
-/

namespace Verif.Itk

/-- A `double`: NaN or a finite number.  Infinities are not modelled. -/
abbrev Dbl := Option ℚ

/-- `a < b` on doubles: false if one is NaN. -/
def Dbl.lt : Dbl → Dbl → Bool
  | some a, some b => decide (a < b)
  | _, _ => false

/-- `a <= b` on doubles: false if one is NaN. -/
def Dbl.le : Dbl → Dbl → Bool
  | some a, some b => decide (a ≤ b)
  | _, _ => false

/-- `a == b` on doubles: false if one is NaN. -/
def Dbl.eq : Dbl → Dbl → Bool
  | some a, some b => decide (a = b)
  | _, _ => false

/-- Rounding to `double` and the square root (of a `double`, rounded). -/
structure Arith where
  rnd : ℚ → ℚ
  sqrt : ℚ → ℚ

def Arith.sub (A : Arith) : Dbl → Dbl → Dbl
  | some a, some b => some (A.rnd (a - b))
  | _, _ => none

/-- `Math::SquaredTwoNorm` of a scalar, and `m_MagnitudeThreshold * m_MagnitudeThreshold`. -/
def Arith.square (A : Arith) : Dbl → Dbl
  | some a => some (A.rnd (a * a))
  | none => none

def Arith.add (A : Arith) : Dbl → Dbl → Dbl
  | some a, some b => some (A.rnd (a + b))
  | _, _ => none

def Arith.root (A : Arith) : Dbl → Dbl
  | some a => some (A.sqrt a)
  | none => none

/-- `itk::Index`. -/
abbrev Index := List Int

/-- `itk::ImageRegion`: per dimension the start index and the size. -/
abbrev Region := List (Int × Nat)

/-- `ImageRegion::GetSize`. -/
def Region.size (r : Region) : List Nat := r.map (·.2)

/-- The indices of a region, the first dimension fastest. -/
def Region.pixels : Region → List Index
  | [] => [[]]
  | (l, n) :: rest => (Region.pixels rest).flatMap fun t => (List.range n).map fun (i : Nat) => (l + (i : Int)) :: t

/-- `ImageRegion::IsInside(region)`. -/
def Region.contains : Region → Region → Bool
  | [], [] => true
  | (l, n) :: r, (l', n') :: r' => decide (l ≤ l' ∧ l' + (n' : Int) ≤ l + (n : Int)) && Region.contains r r'
  | _, _ => false

/-- An image: the largest possible region (all of it in memory), spacing, origin and pixels. -/
structure Image where
  region : Region
  spacing : List Dbl
  origin : List Dbl
  pixel : Index → Dbl

/-- `ZeroFluxNeumannBoundaryCondition`: the nearest index inside the region. -/
def clamp : Region → Index → Index
  | (l, n) :: r, i :: p => max l (min i (l + n - 1)) :: clamp r p
  | _, _ => []

/-- The offsets of a neighbourhood of radius `r` in `d` dimensions, in the order of `ConstNeighborhoodIterator::GetPixel(i)`. -/
def offsets (r d : Nat) : List Index := Region.pixels (List.replicate d (-(r : Int), 2 * r + 1))

/-- The values `test.GetPixel(i)`, `i = 0, 1, ...` of the neighbourhood iterator at `p`. -/
def neighbourhood (test : Image) (r : Nat) (p : Index) : List Dbl :=
  (offsets r p.length).map fun o => test.pixel (clamp test.region (List.zipWith (· + ·) p o))

/-- Parameters of the filter, itktfDifferenceImageFilter.h:124-138. -/
structure Params where
  threshold : Dbl
  radius : Nat
  ignoreBoundary : Bool := false

/-- The search in the neighbourhood, itktfDifferenceImageFilter.txx:170-191, with the smallest difference so far and its
squared magnitude. -/
def searchLoop (A : Arith) (thr2 c : Dbl) : List Dbl → Dbl × Dbl → Dbl × Dbl
  | [], acc => acc
  | t :: ts, (d, m) =>
    let d' := A.sub c t
    let m' := A.square d'
    let acc := if m'.lt m then (d', m') else (d, m)
    if acc.2.le thr2 then acc else searchLoop A thr2 c ts acc

/-- The smallest difference found at a pixel, itktfDifferenceImageFilter.txx:159-192. -/
def pixelDifference (A : Arith) (P : Params) (valid test : Image) (p : Index) : Dbl × Dbl :=
  let thr2 := A.square P.threshold
  let c := valid.pixel p
  let d := A.sub c (test.pixel p)
  let m := A.square d
  if thr2.lt m then searchLoop A thr2 c (neighbourhood test P.radius p) (d, m) else (d, m)

/-- Does the neighbourhood of radius `r` at `p` leave the region?  (`GetNeedToUseBoundaryCondition` of the face that contains `p`:
the faces separate exactly these pixels.) -/
def onBoundary (r : Nat) : Region → Index → Bool
  | (l, n) :: reg, i :: p => decide (i - r < l ∨ l + n ≤ i + r) || onBoundary r reg p
  | _, _ => false

/-- What the threads share: the output image, and one slot per thread of the sums and counts. -/
structure Shared where
  out : Index → Dbl
  sums : Nat → Dbl
  counts : Nat → Nat

/-- `BeforeThreadedGenerateData`, itktfDifferenceImageFilter.txx:92-108; the output image has arbitrary contents. -/
def before (out : Index → Dbl) : Shared := ⟨out, fun _ => some 0, fun _ => 0⟩

/-- `f` changed at one place. -/
def update {α β : Type} [DecidableEq α] (f : α → β) (a : α) (b : β) : α → β := fun x => if x = a then b else f x

/-- What a thread does at a pixel, itktfDifferenceImageFilter.txx:159-207 and, for pixels on the boundary that are to be ignored,
213-224. -/
def step (A : Arith) (P : Params) (valid test : Image) (s : Shared) (e : Nat × Index) : Shared :=
  let (tid, p) := e
  if onBoundary P.radius test.region p && P.ignoreBoundary then { s with out := update s.out p (some 0) }
  else
    let (d, m) := pixelDifference A P valid test p
    if (A.square P.threshold).lt m then
      { out := update s.out p d
        sums := update s.sums tid (A.add (s.sums tid) (A.root m))
        counts := update s.counts tid (s.counts tid + 1) }
    else { s with out := update s.out p (some 0) }

/-- A schedule: which thread visits which pixel, in the order in which this happens. -/
abbrev Sched := List (Nat × Index)

/-- All threads together. -/
def run (A : Arith) (P : Params) (valid test : Image) (s : Shared) (sched : Sched) : Shared :=
  sched.foldl (step A P valid test) s

/-- `AfterThreadedGenerateData`, itktfDifferenceImageFilter.txx:229-247: the number of pixels with differences, for `n` threads. -/
def totalCount (n : Nat) (s : Shared) : Nat := (List.range n).foldl (fun acc t => acc + s.counts t) 0

/-- The total magnitude, itktfDifferenceImageFilter.txx:235. -/
def totalMagnitude (A : Arith) (n : Nat) (s : Shared) : Dbl := (List.range n).foldl (fun acc t => A.add acc (s.sums t)) (some 0)

/-- The threads of a run: their number, the schedule and the initial contents of the output memory. -/
structure Threads where
  n : Nat
  sched : Sched
  memory : Index → Dbl

/-- `UpdateLargestPossibleRegion` of the filter and `GetNumberOfPixelsWithDifferences`: all of the valid image is requested, and also
of the test image, which throws if it is not that large. -/
def filterCount (A : Arith) (P : Params) (T : Threads) (valid test : Image) : Except Fault Nat :=
  if test.region.contains valid.region then
    .ok (totalCount T.n (run A P valid test (before T.memory) T.sched))
  else .error (.thrown "InvalidRequestedRegionError")

/-- `NumericTraits<unsigned long>::max()`. -/
def ulongMax : Nat := 18446744073709551615

/-- A default constructed region of `d` dimensions. -/
def Region.default (d : Nat) : Region := List.replicate d (0, 0)

/-- `CompareImage` of two images, itktfRegression.h:247-307.  (The overload with a region only, lines 241-244, passes
zero tolerances.)  The extracted region is the region of the test image, line 264. -/
def compareImage (A : Arith) (T : Threads) (test baseline : Image) (intensity : Dbl) (pixels radius : Nat) (region : Region) :
    Except Fault Nat :=
  let P : Params := { threshold := intensity, radius := radius }
  let finish (status : Nat) : Nat := if status < pixels then 0 else status - pixels
  if region ≠ Region.default test.region.length then
    if baseline.region.contains test.region then
      match filterCount A P T { baseline with region := test.region } test with
      | .error f => .error f
      | .ok n => .ok (finish n)
    else .error (.thrown "extraction region outside of the image")
  else if baseline.region.size ≠ test.region.size then .ok ulongMax
  else match filterCount A P T baseline test with
    | .error f => .error f
    | .ok n => .ok (finish n)

/-- `!=` on vectors and points (`itk::FixedArray::operator!=`). -/
def differVec : List Dbl → List Dbl → Bool
  | a :: as, b :: bs => !a.eq b || differVec as bs
  | _, _ => false

/-- `RegressionTestImage`, itktfCompareVisitor.cxx:66-140; `read` is ITK's reader (`none`: an `itk::ExceptionObject`). -/
def regressionTestImage (A : Arith) (T : Threads) (read : Str → Option Image) (testName baselineName : Str)
    (intensity : Dbl) (pixels radius : Nat) : Except Fault Int :=
  match read baselineName with
  | none => .ok 1000
  | some baseline =>
    match read testName with
    | none => .ok 1000
    | some test =>
      if baseline.region.size ≠ test.region.size then .ok 1
      else if differVec baseline.spacing test.spacing then .ok 1
      else if differVec baseline.origin baseline.origin then .ok 1
      else match compareImage A T test baseline intensity pixels radius (Region.default test.region.length) with
        | .error f => .error f
        | .ok status => .ok (if status > pixels then 1 else 0)

end Verif.Itk
