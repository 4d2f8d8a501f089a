import Verif.Itk.RepoTestsProps
import Verif.Itk.IeeeRunExample

/-!
# C113: cases that meet the hypotheses
-/

set_option linter.unusedSimpArgs false

namespace Verif.Itk
open Spec Verif.Path Verif.Path.Spec Verif.Measurement Verif.Measurement.Spec Verif.Regression Verif.Regression.Spec Verif.Xml Verif.Xml.Spec
open Verif.Decimal (single)

/-- A row of `n` pixels, all `k` quarters. -/
def quarters (n k : Nat) : Image := ⟨[(0, n)], [some 1], [some 0], fun _ => some ((k : ℚ) / 4)⟩

/-- Its file. -/
def quartersFile (im : Image) : Str := [UInt8.ofNat (im.region.map (·.2)).sum, UInt8.ofNat (match im.pixel [0] with | some v => (v * 4).floor.toNat | none => 0)]

/-- Reading the file. -/
def readQuarters : Str → Option Loaded
  | [n, k] => some ⟨quarters n.toNat k.toNat, b!"scalar", b!"double", 1⟩
  | _ => none

/-- The toolkit that reads these files, with the arithmetic of `double`s. -/
def quarterKit : Toolkit := { doubleKit with read := fun w n => (w.openRead n).bind readQuarters }

theorem quarterKit_sound : Sound quarterKit := by
  refine ⟨?_, rowKit_sound.2⟩
  intro w n l h
  simp only [quarterKit] at h
  rcases hr : w.openRead n with _ | b
  · rw [hr] at h; cases h
  · rw [hr] at h
    rcases b with _ | ⟨a, _ | ⟨b, _ | c⟩⟩ <;> cases h
    intro x hx
    simp only [quarters, List.mem_singleton] at hx
    rw [hx]

theorem quarterKit_reads : ReadsFiles quarterKit readQuarters := fun _ _ => rfl

/-- The environment of these tests, with a baseline. -/
def quarterEnv (bs : List Meas) : Env := { rowEnv with readXML := fun _ => .ok bs, image := some quarterKit.imageEnv }

/-- The directories of the tests: 3 pixels of 28, 32 and 36 quarters. -/
def testDisk : World := diskWith [(b!"/base/f", b!"doc"), (b!"/data/vm_head_coronal.png", [3, 28]), (b!"/data/vm_head_coronal.jpg", [3, 32]), (b!"/data/vm_head_coronal_diff.png", [3, 36]),
  (b!"/data/itktfTest3.png", [3, 28])]

theorem quarters_geometry (n k : Nat) : Geometry (quarters n k) := ⟨by simp [quarters], by simp [quarters]⟩

theorem in_data_dir (last : Str) (h : last.head? ≠ some 47) : InDir b!"/data" last (b!"/data" ++ 47 :: last) :=
  .inr (.inr ⟨by rintro ⟨r, rfl⟩; exact h rfl, by decide, b!"/data", ⟨0, by decide, by decide, by decide⟩, rfl⟩)

/-- The hypotheses of `C113_test1` are met. -/
example : (main (quarterEnv [insightEntry b!"Insight PNG Image" b!"vm_head_coronal.png", insightEntry b!"Insight JPEG Image" b!"vm_head_coronal.jpg"]) (repoTest1 b!"/data") 2
    [b!"prog", b!"-I", b!"/base/f"] ⟨itkObject b!"/data", testDisk⟩).2 = .ok 0 :=
  C113_test1 quarterKit quarterKit_sound (by decide +kernel) _ readQuarters quarterKit_reads rfl 2 (by decide) testDisk b!"/data" b!"prog" b!"/base/f" b!"doc" ⟨_, rfl⟩ rfl rfl _ _
    (in_data_dir _ (by decide)) (in_data_dir _ (by decide)) ⟨quarters 3 28, b!"scalar", b!"double", 1⟩ ⟨quarters 3 32, b!"scalar", b!"double", 1⟩ rfl rfl (quarters_geometry _ _) (quarters_geometry _ _)

/-- Rows of different numbers are not alike. -/
theorem quarters_unlike (j k : Nat) (h : Decimal.double.nearest 0 < Decimal.double.nearest (Decimal.double.nearest |(j : ℚ) / 4 - (k : ℚ) / 4| * Decimal.double.nearest |(j : ℚ) / 4 - (k : ℚ) / 4|)) :
    ¬ Alike quarterKit ⟨0, 0, 0⟩ (quarters 3 j) (quarters 3 k) := by
  rintro ⟨-, -, -, hc⟩
  have hd : ∀ p, Spec.Differs quarterKit.arith 0 0 (quarters 3 j) (quarters 3 k) p := by
    intro p
    refine (differs_iff id 0 0 (quarters 3 j) (quarters 3 k) p).mpr ⟨_, _, rfl, rfl, ?_⟩
    intro q y _ _ hy
    cases hy
    simpa using h
  rw [count, List.filter_eq_self.mpr (fun p _ => by simpa using hd p)] at hc
  revert hc
  simp [quarters, Region.pixels]

/-- The hypotheses of `C113_test2` are met, and the test passes. -/
example : ∃ ret, (main (quarterEnv [insightEntry b!"Different Images PNG" b!"vm_head_coronal_diff.png", insightEntry b!"Different Images PNG to JPEG" b!"vm_head_coronal.png"]) (repoTest2 b!"/data") 2
    [b!"prog", b!"-I", b!"/base/f"] ⟨itkObject b!"/data", testDisk⟩).2 = .ok ret ∧ repoTest2Status ret = 0 := by
  obtain ⟨ret, h1, h2⟩ := C113_test2 quarterKit quarterKit_sound (quarterEnv [insightEntry b!"Different Images PNG" b!"vm_head_coronal_diff.png",
    insightEntry b!"Different Images PNG to JPEG" b!"vm_head_coronal.png"]) readQuarters quarterKit_reads rfl 2 (by decide) testDisk b!"/data" b!"prog" b!"/base/f" b!"doc" ⟨_, rfl⟩ rfl rfl _ _ _
    (in_data_dir _ (by decide)) (in_data_dir _ (by decide)) (in_data_dir _ (by decide)) ⟨quarters 3 36, b!"scalar", b!"double", 1⟩ ⟨quarters 3 28, b!"scalar", b!"double", 1⟩
    ⟨quarters 3 32, b!"scalar", b!"double", 1⟩ rfl rfl rfl
  exact ⟨ret, h1, h2.mpr ⟨quarters_unlike 36 28 (by decide +kernel), quarters_unlike 28 32 (by decide +kernel)⟩⟩

/-- The hypotheses of `C113_test3` are met, and the test passes. -/
example : ∃ ret, (main (quarterEnv [insightEntry b!"Pipelined Image" b!"itktfTest3.png"]) (repoTest3 quarterKit quartersFile b!"/data" b!"/out") 2
    [b!"prog", b!"-I", b!"/base/f"] ⟨itkObject b!"/data", testDisk⟩).2 = .ok ret ∧ ret = 0 := by
  obtain ⟨ret, h1, h2⟩ := C113_test3 quarterKit quarterKit_sound (quarterEnv [insightEntry b!"Pipelined Image" b!"itktfTest3.png"]) quartersFile readQuarters quarterKit_reads rfl 2 (by decide) testDisk b!"/data"
    b!"/out" b!"prog" b!"/base/f" b!"doc" ⟨_, rfl⟩ rfl rfl b!"/data/vm_head_coronal.png" b!"/out/itktfTest3.png" b!"/data/itktfTest3.png" (in_data_dir b!"vm_head_coronal.png" (by decide))
    (.inr (.inr ⟨by rintro ⟨r, h⟩; revert h; simp, by decide, b!"/out", ⟨0, by decide, by decide, by decide⟩, rfl⟩)) (in_data_dir b!"itktfTest3.png" (by decide))
    ⟨quarters 3 28, b!"scalar", b!"double", 1⟩ ⟨quarters 3 28, b!"scalar", b!"double", 1⟩ rfl rfl rfl (.inl rfl)
    ⟨⟨quarters 3 28, b!"scalar", b!"double", 1⟩, by
      have : quartersFile (quarters 3 28) = [3, 28] := by decide +kernel
      rw [this]; rfl, rfl⟩ (by decide) (by decide)
  exact ⟨ret, h1, h2.mpr (alike_self quarterKit (by decide +kernel) 0 0 _ (quarters_geometry 3 28))⟩

theorem quarters_noise : addNoise (fun _ => 1 / 4) (quarters 3 32) = quarters 3 33 := by
  have : nearestSingle (((32 : Nat) : ℚ) / 4 + 1 / 4) = ((33 : Nat) : ℚ) / 4 := by decide +kernel
  simp only [addNoise, quarters, Option.map_some, this]

/-- The hypotheses of `C113_test4` are met: 8 becomes 8.25, and the test passes. -/
example : (main (quarterEnv [insightEntry b!"Tolerant Image Output" b!"vm_head_coronal.jpg"]) (repoTest4 quarterKit quartersFile fun _ => 1 / 4) 2
    [b!"prog", b!"-I", b!"/base/f", b!"/data/vm_head_coronal.jpg", b!"/out/o.mha"] ⟨itkObject b!"/data", testDisk⟩).2 = .ok 0 :=
  C113_test4 quarterKit quarterKit_sound id rfl _ quartersFile readQuarters quarterKit_reads rfl 2 (by decide) testDisk b!"/data" b!"prog" b!"/base/f" b!"doc" ⟨_, rfl⟩ rfl rfl (fun _ => 1 / 4)
    (fun _ => by norm_num [abs_of_pos]) b!"/data/vm_head_coronal.jpg" b!"/out/o.mha" [] (by simp [IsOption]) (in_data_dir b!"vm_head_coronal.jpg" (by decide))
    ⟨quarters 3 32, b!"scalar", b!"double", 1⟩ rfl (quarters_geometry 3 32) (fun _ => ⟨8, by norm_num, by norm_num [quarters]⟩) rfl (.inl rfl)
    ⟨⟨quarters 3 33, b!"scalar", b!"double", 1⟩, by
      have : quartersFile (addNoise (fun _ => 1 / 4) (quarters 3 32)) = [3, 33] := by rw [quarters_noise]; decide +kernel
      rw [this]; rfl, quarters_noise.symm⟩ (by decide) (by decide)

/-- Without the name of the output. -/
example : (main (quarterEnv []) (repoTest4 quarterKit quartersFile fun _ => 1 / 4) 2 [b!"prog", b!"-I", b!"/base/f", b!"/data/vm_head_coronal.jpg"] ⟨itkObject b!"/data", testDisk⟩).2 = .ok 1 :=
  C113_test4_usage quarterKit (quarterEnv []) quartersFile 2 (by decide) testDisk b!"/data" b!"prog" b!"/base/f" b!"doc" [b!"/data/vm_head_coronal.jpg"] (by simp [Stops, IsOption]) ⟨_, rfl⟩ rfl [] rfl _
    (by decide)

/-- The input is missing. -/
example : (main (quarterEnv []) (repoTest4 quarterKit quartersFile fun _ => 1 / 4) 2 [b!"prog", b!"-I", b!"/base/f", b!"/data/a", b!"/out/o.mha"] ⟨itkObject b!"/data", testDisk⟩).2 = .ok (-1) :=
  C113_filter_fails quarterKit (quarterEnv []) quartersFile 2 (by decide) _ testDisk b!"/data" b!"prog" b!"/base/f" b!"doc" [b!"/data/a", b!"/out/o.mha"] (by simp [Stops, IsOption]) ⟨_, rfl⟩ rfl [] rfl
    (addNoise fun _ => 1 / 4) ⟨1, 0, 0⟩ b!"/data/a" b!"/out/o.mha" b!"Tolerant Image Output" rfl (.inl rfl)

end Verif.Itk
