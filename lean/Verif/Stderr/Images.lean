import Verif.Stderr.Model

/-!
# What the visitors of `itk::Regression` write to `std::cerr`
-/

namespace Verif.Stderr
open Verif.Measurement Verif.Regression Verif.Itk

/-- What ITK says when it fails: `GetDescription()` of the exception of a reader, and, for the images written for the dashboard, the exceptions of the filter that rescales and of the writer (`some none`: one
that is no `std::exception`).  Parameters of the model. -/
structure Complaints where
  reading : World → Str → Str
  rescaling : World → Str → Option (Option Str)
  writing : World → Str → Option (Option Str)

/-- The pieces written in a `catch` clause of `ImageThing`, itktfDifferenceVisitor.cxx:124-132, 143-151. -/
def clause (what fileName : Str) : Option (Option Str) → List Str
  | none => []
  | some none => [what ++ fileName ++ b!"\n"]
  | some (some text) => [what ++ fileName ++ b!"\n", cstr text ++ b!"\n"]

/-- `ImageThing`, itktfDifferenceVisitor.cxx:120-151: what it writes to `std::cerr`. -/
def imageThingSays (C : Complaints) (w : World) (fileName : Str) : List Str :=
  clause b!"Error during rescale of " fileName (C.rescaling w fileName) ++ clause b!"Error during exctraction and writing of " fileName (C.writing w fileName)

/-- `RegressionTestImage`, itktfCompareVisitor.cxx:77-101: what it writes to `std::cerr`; the piece about the baseline is not ended. -/
def comparingSays (I : Toolkit) (C : Complaints) (w : World) (testName baselineName : Str) : List Str :=
  match I.read w baselineName with
  | none => [b!"Exception detected while reading " ++ baselineName ++ b!" : " ++ cstr (C.reading w baselineName)]
  | some _ => match I.read w testName with
    | none => [b!"Exception detected while reading " ++ testName ++ b!" : " ++ cstr (C.reading w testName) ++ b!"\n"]
    | some _ => []

/-- A step of `DifferenceTestImage`: what is written to `std::cerr`, then what is written to `std::cout` or the exception. -/
abbrev Step := List Str × Except Fault Str

/-- The steps up to the first exception. -/
def runSteps : List Step → List Str × Str × Option Fault
  | [] => ([], [], none)
  | (ms, .error f) :: _ => (ms, [], some f)
  | (ms, .ok t) :: rest => match runSteps rest with
    | (ms', u, e) => (ms ++ ms', t ++ u, e)

/-- An image written for the dashboard, itktfDifferenceVisitor.cxx:330-345. -/
def pngStep (I : Toolkit) (C : Complaints) (w : World) (region : Region) (fileName ext name : Str) : Step :=
  match Path.tail fileName with
  | .error f => ([], .error f)
  | .ok tail => (imageThingSays C w (Path.append I.texts.outputDirectory (tail ++ ext)), imageThing I region (Path.append I.texts.outputDirectory (tail ++ ext)) name)

/-- Measurements of the baseline and of the test, itktfDifferenceVisitor.cxx:196-308: nothing is written to `std::cerr`. -/
def statusSteps (l : List (Except Fault Str)) : List Step := l.map fun x => ([], x)

/-- `DifferenceTestImage`, itktfDifferenceVisitor.cxx:164-349, with both streams. -/
def differenceRun (I : Toolkit) (C : Complaints) (w : World) (t : ImgTol) (test baseline : FileM) : List Str × Str × Option Fault :=
  match I.read w test.fileName with
  | none => ([], [], some (.thrown "itk::ExceptionObject"))
  | some lt =>
    match I.read w baseline.fileName with
    | none => ([], [], some (.thrown "itk::ExceptionObject"))
    | some lb =>
      if lb.image.region.size ≠ lt.image.region.size then
        runSteps (statusSteps (statusPair true .string (b!"Baseline Size " ++ test.name) (I.texts.size lb.image.region.size)
          (b!"Test ImageSize " ++ test.name) (I.texts.size lt.image.region.size)))
      else runSteps (statusSteps (
        statusPair (differVec lb.image.spacing lt.image.spacing) .string (b!"Baseline Spacing " ++ test.name) (I.texts.vector lb.image.spacing)
          (b!"Test Spacing " ++ test.name) (I.texts.vector lt.image.spacing) ++
        statusPair (differVec lb.image.origin lt.image.origin) .string (b!"Baseline Origin " ++ test.name) (I.texts.vector lb.image.origin)
          (b!"Test Origin " ++ test.name) (I.texts.vector lt.image.origin) ++
        statusPair (decide (lb.pixelType ≠ lt.pixelType)) .string (b!"Baseline PixelType " ++ test.name) lb.pixelType
          (b!"Test PixelType " ++ test.name) lt.pixelType ++
        statusPair (decide (lb.componentType ≠ lt.componentType)) .string (b!"Baseline ComponentType " ++ test.name)
          lb.componentType (b!"Test ComponentType " ++ test.name) lt.componentType ++
        statusPair (decide (lb.components ≠ lt.components)) (.num .integer)
          (b!"Baseline Number Of Components " ++ test.name) (intText (longToInt lb.components))
          (b!"Test Number Of Components " ++ test.name) (intText (longToInt lt.components)) ++
        [errorText I t lb.image lt.image test.name]) ++
        [pngStep I C w lb.image.region test.fileName b!".diff.png" test.name,
          pngStep I C w lb.image.region test.fileName b!".base.png" test.name,
          pngStep I C w lt.image.region test.fileName b!".test.png" test.name])

/-- What is written to `std::cerr` about images, itktfCompareVisitor.cxx:34-101, itktfDifferenceVisitor.cxx:55-349. -/
def itkVoice (I : Toolkit) (C : Complaints) : ImageVoice := ⟨comparingSays I C, fun w t test baseline => (differenceRun I C w t test baseline).1⟩

end Verif.Stderr
