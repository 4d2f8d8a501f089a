import Verif.Itk.Model
import Verif.Itk.Names

/-!
# Model of `itktfCompareVisitor.cxx` and `itktfDifferenceVisitor.cxx` as parts of a regression run

The text ITK prints for sizes, vectors, regions and pixel types is a parameter (`Texts`).  The PNG files written for the dashboard are not
modelled; a failure to write them is caught (itktfDifferenceVisitor.cxx:119-151) and does not change what follows.
-/

namespace Verif.Itk
open Verif.Regression Verif.Measurement

/-- What the reader of an image file delivers: the image, and what `GetImageIO()` tells about the file. -/
structure Loaded where
  image : Image
  pixelType : Str
  componentType : Str
  components : Nat

/-- Texts printed by ITK and the standard library, and the directory for the images written. -/
structure Texts where
  size : List Nat → Str
  vector : List Dbl → Str
  region : Region → Str
  double : Nat → Str
  outputDirectory : Str

/-- ITK: arithmetic, the way a region is worked on by threads, the reader and the texts. -/
structure Toolkit where
  arith : Arith
  threads : Region → Threads
  read : World → Str → Option Loaded
  texts : Texts

/-- The visit of an image file, itktfCompareVisitor.cxx:34-64: the images are the same if `RegressionTestImage` returns 0. -/
def Toolkit.compare (I : Toolkit) (w : World) (t : ImgTol) (testName baselineName : Str) : Bool :=
  let threads := match I.read w baselineName with
    | some l => I.threads l.image.region
    | none => ⟨0, [], fun _ => none⟩
  decide (regressionTestImage I.arith threads (fun n => (I.read w n).map (·.image)) testName baselineName
    (some t.intensity) t.pixels t.radius = .ok 0)

/-- One text measurement written to `std::cout`. -/
def statusText (kind : Measurement.Kind) (name content : Str) : Except Fault Str :=
  match (Meas.data { kind := kind, name := name, content := content }).print with
  | .error f => .error f
  | .ok t => .ok (t ++ b!"\n")

/-- Two measurements, of the baseline and of the test, if the values differ, e.g. itktfDifferenceVisitor.cxx:222-237. -/
def statusPair (differ : Bool) (kind : Measurement.Kind) (nameB contentB nameT contentT : Str) : List (Except Fault Str) :=
  if differ then [statusText kind nameB contentB, statusText kind nameT contentT] else []

/-- Writing one text after the other to `std::cout`, until an exception: what is written, and the exception. -/
def writeAll : List (Except Fault Str) → Str × Option Fault
  | [] => ([], none)
  | .error f :: _ => ([], some f)
  | .ok t :: rest => let (u, e) := writeAll rest; (t ++ u, e)

/-- `ImageThing`, itktfDifferenceVisitor.cxx:73-161: what is written to `std::cout`.  The extracted region is the middle of the
dimensions from the third on. -/
def imageThing (I : Toolkit) (region : Region) (fileName name : Str) : Except Fault Str :=
  let slice := region.zipIdx.map fun ((_, n), i) => if i < 2 then ((0 : Int), n) else (((n / 2 : Nat) : Int), 0)
  match (Meas.file { type := b!"image/png", name := b!"Difference " ++ name, fileName := fileName }).print with
  | .error f => .error f
  | .ok t => .ok (I.texts.region slice ++ t ++ b!"\n")

/-- The measurement of the number of pixels that differ, itktfDifferenceVisitor.cxx:309-328: if the filter throws, it is not written. -/
def errorText (I : Toolkit) (t : ImgTol) (bi ti : Image) (name : Str) : Except Fault Str :=
  match filterCount I.arith { threshold := some t.intensity, radius := t.radius } (I.threads bi.region) bi ti with
  | .error f => .error f
  | .ok status => statusText (.num .double) (b!"ImageError " ++ name) (I.texts.double status)

/-- The name of an image written for the dashboard, itktfDifferenceVisitor.cxx:330, 335, 340, and the measurement that names it. -/
def pngText (I : Toolkit) (region : Region) (fileName ext name : Str) : Except Fault Str :=
  match Path.tail fileName with
  | .error f => .error f
  | .ok tail => imageThing I region (Path.append I.texts.outputDirectory (tail ++ ext)) name

/-- `DifferenceTestImage`, itktfDifferenceVisitor.cxx:164-349: what is written to `std::cout`, and the exception that ends it.  A file that cannot be
read throws before anything is written (a file of which only the header can be read is not modelled).  `test` and `baseline` are the measurements. -/
def Toolkit.differenceText (I : Toolkit) (w : World) (t : ImgTol) (test baseline : FileM) : Str × Option Fault :=
  match I.read w test.fileName with
  | none => ([], some (.thrown "itk::ExceptionObject"))
  | some lt =>
    match I.read w baseline.fileName with
    | none => ([], some (.thrown "itk::ExceptionObject"))
    | some lb =>
      let ti := lt.image
      let bi := lb.image
      if bi.region.size ≠ ti.region.size then
        writeAll (statusPair true .string (b!"Baseline Size " ++ test.name) (I.texts.size bi.region.size)
          (b!"Test ImageSize " ++ test.name) (I.texts.size ti.region.size))
      else writeAll (
        statusPair (differVec bi.spacing ti.spacing) .string (b!"Baseline Spacing " ++ test.name) (I.texts.vector bi.spacing)
          (b!"Test Spacing " ++ test.name) (I.texts.vector ti.spacing) ++
        statusPair (differVec bi.origin ti.origin) .string (b!"Baseline Origin " ++ test.name) (I.texts.vector bi.origin)
          (b!"Test Origin " ++ test.name) (I.texts.vector ti.origin) ++
        statusPair (decide (lb.pixelType ≠ lt.pixelType)) .string (b!"Baseline PixelType " ++ test.name) lb.pixelType
          (b!"Test PixelType " ++ test.name) lt.pixelType ++
        statusPair (decide (lb.componentType ≠ lt.componentType)) .string (b!"Baseline ComponentType " ++ test.name)
          lb.componentType (b!"Test ComponentType " ++ test.name) lt.componentType ++
        statusPair (decide (lb.components ≠ lt.components)) (.num .integer)
          (b!"Baseline Number Of Components " ++ test.name) (intText (longToInt lb.components))
          (b!"Test Number Of Components " ++ test.name) (intText (longToInt lt.components)) ++
        [errorText I t bi ti test.name,
          pngText I bi.region test.fileName b!".diff.png" test.name,
          pngText I bi.region test.fileName b!".base.png" test.name,
          pngText I ti.region test.fileName b!".test.png" test.name])

/-- The visitors of `itk::Regression`, itktfRegression.cxx:117-128. -/
def Toolkit.imageEnv (I : Toolkit) : ImageEnv := ⟨I.compare, I.differenceText⟩

end Verif.Itk
