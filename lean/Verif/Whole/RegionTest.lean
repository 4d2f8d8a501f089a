import Verif.Whole.InsightProps

/-!
# Property C114: the project's own test of regions, itktfMeasurementInsightRegionTest, with its baseline
-/

set_option linter.unusedSimpArgs false

namespace Verif.Whole
open Verif.Measurement Verif.Measurement.Spec Verif.Regression Verif.Regression.Spec Verif.Decimal Verif.Decimal.Spec Verif.Xml Verif.Xml.Spec Spec Verif.Itk
open Verif.Path (isFile isReadable searchPathList)
open Verif.Path.Spec (Absolute)

/-- The file itktf/Testing/XML/itktfMeasurementInsightRegionTest.xml. -/
def regionDocument : Str :=
  b!"<?xml version=\"1.0\" encoding=\"US-ASCII\"?>\n<!-- created on victoria.nlm.nih.gov at Tue Jul  7 16:57:34 2009\n -->\n<output>\n" ++
  b!"<DartMeasurement name=\"Read Region Index_0\" type=\"numeric/integer\">0</DartMeasurement>\n" ++
  b!"<DartMeasurement name=\"Read Region Index_1\" type=\"numeric/integer\">0</DartMeasurement>\n" ++
  b!"<DartMeasurement name=\"Read Region Index_2\" type=\"numeric/integer\">0</DartMeasurement>\n" ++
  b!"<DartMeasurement name=\"Read Region Size_0\" type=\"numeric/integer\">100</DartMeasurement>\n" ++
  b!"<DartMeasurement name=\"Read Region Size_1\" type=\"numeric/integer\">77</DartMeasurement>\n" ++
  b!"<DartMeasurement name=\"Read Region Size_2\" type=\"numeric/integer\">1</DartMeasurement>\n</output>\n"

/-- The computer on which it was written. -/
def victoria : World := { plainWorld with host := b!"victoria.nlm.nih.gov", time := b!"Tue Jul  7 16:57:34 2009\n" }

theorem victoria_comment : Comment (commentText victoria) := ⟨by decide +kernel, noDouble_spec _ (by decide +kernel), by decide +kernel⟩

/-- The region in it. -/
def recordedRegion : Compound := ⟨b!"Read Region", .region [0, 0, 0] [100, 77, 1], false⟩

theorem region_bytes : header victoria ++ ((([recordedRegion].flatMap Compound.items).map Item.call).map fun c => line (recordedMeas c)).flatten ++ footer = regionDocument := by
  have n0 : natText 0 = b!"0" := by rw [natText, if_pos (by decide)]; decide +kernel
  have n1 : natText 1 = b!"1" := by rw [natText, if_pos (by decide)]; decide +kernel
  have n2 : natText 2 = b!"2" := by rw [natText, if_pos (by decide)]; decide +kernel
  have n7 : natText 7 = b!"7" := by rw [natText, if_pos (by decide)]; decide +kernel
  have n77 : natText 77 = b!"77" := by rw [natText, if_neg (by decide), show 77 / 10 = 7 from rfl, n7]; decide +kernel
  have n10 : natText 10 = b!"10" := by rw [natText, if_neg (by decide), show 10 / 10 = 1 from rfl, n1]; decide +kernel
  have n100 : natText 100 = b!"100" := by rw [natText, if_neg (by decide), show 100 / 10 = 10 from rfl, n10]; decide +kernel
  have hl : ∀ (n s : Str) (v : Int), intText (longToInt v) = s → line (recordedMeas (Item.call ⟨n, .integer v, false⟩)) =
      line (.data { kind := .num .integer, name := n, content := s }) := by
    rintro n s v rfl
    rfl
  have hitems : [recordedRegion].flatMap Compound.items =
      [⟨b!"Read Region Index_0", .integer 0, false⟩, ⟨b!"Read Region Index_1", .integer 0, false⟩, ⟨b!"Read Region Index_2", .integer 0, false⟩,
        ⟨b!"Read Region Size_0", .integer 100, false⟩, ⟨b!"Read Region Size_1", .integer 77, false⟩, ⟨b!"Read Region Size_2", .integer 1, false⟩] := by
    simp [recordedRegion, Compound.items, elements, List.zipIdx, n0, n1, n2]
  rw [hitems]
  simp only [List.map_cons, List.map_nil]
  rw [hl _ b!"0" 0 (by rw [show longToInt 0 = 0 from rfl, intText, if_neg (by decide)]; exact n0),
    hl _ b!"0" 0 (by rw [show longToInt 0 = 0 from rfl, intText, if_neg (by decide)]; exact n0),
    hl _ b!"0" 0 (by rw [show longToInt 0 = 0 from rfl, intText, if_neg (by decide)]; exact n0),
    hl _ b!"100" 100 (by rw [show longToInt 100 = 100 from rfl, intText, if_neg (by decide)]; exact n100),
    hl _ b!"77" 77 (by rw [show longToInt 77 = 77 from rfl, intText, if_neg (by decide)]; exact n77),
    hl _ b!"1" 1 (by rw [show longToInt 1 = 1 from rfl, intText, if_neg (by decide)]; exact n1)]
  decide +kernel

theorem region_valid : recordedRegion.Valid := ⟨by decide, by intro v hv; simp at hv; subst hv; norm_num, by
    intro v hv; simp at hv; rcases hv with rfl | rfl | rfl <;> norm_num⟩

theorem region_read (X : Expat) (hX : Conforms X) (mem : (Int → Nat) × (Int → Nat)) (steps : Nat) :
    (whole X mem steps).readXML regionDocument = .ok ((([recordedRegion].flatMap Compound.items).map Item.call).map recordedMeas) := by
  rw [show (whole X mem steps).readXML = readXML X from rfl, ← region_bytes]
  exact read_recording X hX _ victoria victoria_comment (fun c hc => by
    obtain ⟨x, hx', rfl⟩ := List.mem_map.mp hc
    obtain ⟨c, hc, hx⟩ := List.mem_flatMap.mp hx'
    rw [List.mem_singleton] at hc
    subst hc
    have hval := items_valid _ region_valid x hx
    refine recorded_clean _ x.data (call_data x) ?_ ?_
    · rw [call_data]
      show ∀ c ∈ x.data.name, AttrChar c
      rw [data_name]; exact hval.2.1
    · rw [call_data]; exact data_printable x hval)

/-- **C114.** The project's own test of regions with the project's baseline: it passes exactly for an image whose region begins at the origin and has 100 by 77 by 1 pixels; otherwise `Main` returns the number of
components of the region that are different. -/
theorem C114_repo_region (X : Expat) (hX : Conforms X) (mem : (Int → Nat) × (Int → Nat)) (steps : Nat) (info : World → Str → Option (List Int × List Int)) (tol : ℚ) (h0 : 0 ≤ tol) (h1 : tol ≤ 1)
    (fuel : Nat) (hfuel : 1 < fuel) (dataDir prog f input : Str) (more : List Str) (hstop : Stops (input :: more)) (w : World) (habs : Absolute f)
    (hdoc : isFile w.fs f = true ∧ isReadable w.fs f = true ∧ w.openRead f = some regionDocument) (index size : List Int) (hinfo : info w input = some (index, size))
    (hi : index.length = 3 ∧ ∀ v ∈ index, |v| < 2 ^ 30) (hs : size.length = 3 ∧ ∀ v ∈ size, |v| < 2 ^ 30) :
    (main (whole X mem steps) (regionTest info) fuel (prog :: b!"-I" :: f :: input :: more) ⟨{ itkObject dataDir with tolerance := tol }, w⟩).2 =
      .ok ((misses (fun u v => u = v) [0, 0, 0] index + misses (fun u v => u = v) [100, 77, 1] size : Nat) : Int) ∧
    ((main (whole X mem steps) (regionTest info) fuel (prog :: b!"-I" :: f :: input :: more) ⟨{ itkObject dataDir with tolerance := tol }, w⟩).2 = .ok 0 ↔
      index = [0, 0, 0] ∧ size = [100, 77, 1]) := by
  have hf : f ≠ [] := by
    obtain ⟨r, rfl⟩ := habs
    simp
  have hv := region_valid
  obtain ⟨⟨-, -, r3, -⟩, -⟩ := record_run_at 0 [dataDir] [] (by simp [Stops]) X { num := Decimal.ieee, readXML := fun _ => .ok [], diff := Diff.diff (some mem) steps } 0
    (([recordedRegion].flatMap Compound.items).map Item.call) fuel hfuel b!"prog" b!"f" victoria (by decide) rfl (Or.inl rfl)
  rw [← whole, region_bytes] at r3
  obtain ⟨d1, d2, d3⟩ := hdoc
  have hmain := C114_regions X hX mem steps [recordedRegion] [⟨b!"Read Region", .region index size, false⟩] (by simpa using hv)
    (by intro d hd; rw [List.mem_singleton] at hd; subst hd; exact ⟨⟨(by decide : ∀ x ∈ b!"Read Region", AttrChar x), hi.2, hs.2⟩, rfl, Or.inr ⟨_, _, rfl⟩⟩)
    (.cons ⟨rfl, rfl, hi.1.symm, hs.1.symm⟩ .nil) 0 tol h0 h1 fuel hfuel dataDir dataDir [] (input :: more) (by simp [Stops]) hstop b!"prog" b!"f" prog f victoria w victoria_comment (by decide) rfl (Or.inl rfl) _ rfl
    habs ⟨d1, d2, by rw [d3, test_straight]; exact r3.symm⟩
  have hread := region_read X hX mem steps
  obtain ⟨hp, hb, -⟩ := compare_begin_at tol [dataDir] (input :: more) hstop (whole X mem steps) fuel hfuel prog f w regionDocument hf
    (by rw [search_absolute w.fs f dataDir habs]; exact if_neg hf) d1 d2 d3 _ hread
  have heq : main (whole X mem steps) (regionTest info) fuel (prog :: b!"-I" :: f :: input :: more) ⟨{ itkObject dataDir with tolerance := tol }, w⟩ =
      main (whole X mem steps) (fun _ => compoundTest [⟨b!"Read Region", .region index size, false⟩]) fuel (prog :: b!"-I" :: f :: input :: more) ⟨{ itkObject dataDir with tolerance := tol }, w⟩ := by
    rw [show ({ itkObject dataDir with tolerance := tol } : Obj) = { tolerance := tol, searchPath := [dataDir] } from rfl]
    simp only [main, tryBlock, hp, hb, regionTest, runProg, hinfo]
    rfl
  rw [heq, hmain.2]
  refine ⟨?_, ?_⟩
  · rw [hmain.1]
    have e : SameInteger Eq false = fun u v => u = v := by
      funext u v; rw [SameInteger]; simp
    simp [recordedRegion, differences, e]
  · simp only [recordedRegion, List.map_cons, List.map_nil, List.cons.injEq, CompoundValue.region.injEq, and_true]
    constructor
    · rintro ⟨a, b⟩; exact ⟨a.symm, b.symm⟩
    · rintro ⟨a, b⟩; exact ⟨a.symm, b.symm⟩

/-- **C114.** Without a file name the test fails with 1; if the image cannot be read it fails with -1 and writes no document. -/
theorem C114_repo_region_fails (X : Expat) (hX : Conforms X) (mem : (Int → Nat) × (Int → Nat)) (steps : Nat) (info : World → Str → Option (List Int × List Int)) (tol : ℚ)
    (fuel : Nat) (hfuel : 1 < fuel) (dataDir prog f : Str) (w : World) (habs : Absolute f)
    (hdoc : isFile w.fs f = true ∧ isReadable w.fs f = true ∧ w.openRead f = some regionDocument) :
    (main (whole X mem steps) (regionTest info) fuel [prog, b!"-I", f] ⟨{ itkObject dataDir with tolerance := tol }, w⟩).2 = .ok 1 ∧
    ∀ input more, Stops (input :: more) → info w input = none →
      (main (whole X mem steps) (regionTest info) fuel (prog :: b!"-I" :: f :: input :: more) ⟨{ itkObject dataDir with tolerance := tol }, w⟩).2 = .ok (-1) ∧
      (main (whole X mem steps) (regionTest info) fuel (prog :: b!"-I" :: f :: input :: more) ⟨{ itkObject dataDir with tolerance := tol }, w⟩).1.world = w := by
  have hf : f ≠ [] := by
    obtain ⟨r, rfl⟩ := habs
    simp
  obtain ⟨d1, d2, d3⟩ := hdoc
  have hread := region_read X hX mem steps
  have hbegin := fun more hstop => compare_begin_at tol [dataDir] more hstop (whole X mem steps) fuel hfuel prog f w regionDocument hf
    (by rw [search_absolute w.fs f dataDir habs]; exact if_neg hf) d1 d2 d3 _ hread
  rw [show ({ itkObject dataDir with tolerance := tol } : Obj) = { tolerance := tol, searchPath := [dataDir] } from rfl]
  constructor
  · obtain ⟨hp, hb, -⟩ := hbegin [] (by simp [Stops])
    simp only [main, tryBlock, hp, hb, regionTest, runProg, mainValue, endMeasurement]
    simp [St.compareMode]
  · intro input more hstop hnone
    obtain ⟨hp, hb, -⟩ := hbegin (input :: more) hstop
    simp only [main, tryBlock, hp, hb, regionTest, runProg, hnone, mainValue]
    simp [St.compareMode]

end Verif.Whole
