import Verif.Whole.RegionTest
import Verif.Itk.DataDirExample

/-!
# The hypotheses of C114 are met
-/

namespace Verif.Whole
open Verif.Measurement Verif.Measurement.Spec Verif.Regression Verif.Regression.Spec Verif.Decimal Verif.Decimal.Spec Verif.Xml Verif.Xml.Spec Spec Verif.Itk

/-- An image of 2 slices fails in one component. -/
example : (main (whole reference (fun _ => 0, fun _ => 0) 20) (regionTest fun _ _ => some ([0, 0, 0], [100, 77, 2])) 2 [b!"prog", b!"-I", b!"/b.xml", b!"x.png"]
    ⟨{ itkObject b!"/data" with tolerance := 0 }, diskWith [(b!"/b.xml", regionDocument)]⟩).2 = .ok 1 := by
  have := (C114_repo_region reference reference_conforms (fun _ => 0, fun _ => 0) 20 (fun _ _ => some ([0, 0, 0], [100, 77, 2])) 0 (by norm_num) (by norm_num) 2 (by decide) b!"/data" b!"prog" b!"/b.xml" b!"x.png" []
    (by simp [Stops, IsOption]) (diskWith [(b!"/b.xml", regionDocument)]) ⟨_, rfl⟩ ⟨by decide, by decide, by simp [World.openRead, diskWith, cstr]⟩ _ _ rfl
    ⟨rfl, by simp⟩ ⟨rfl, by simp⟩).1
  rw [this]
  simp [misses]

/-- A matrix, measured with tolerance: an entry beyond the tolerance is one failure, one within it is none. -/
example : ∃ w1, (main (whole reference (fun _ => 0, fun _ => 0) 20) (fun _ => compoundTest [⟨b!"m", .matrix [[1, 2], [100, 4]], true⟩, ⟨b!"i", .integers [3, -4], false⟩]) 2 [b!"prog", b!"-I", b!"/f"]
    ⟨{ itkObject b!"/data" with tolerance := 1 / 10 }, w1⟩).2 = .ok 2 := by
  have hd : ∀ n : Nat, n < 2 ^ 53 → IsDouble n := fun n hn => ⟨n, 0, by exact_mod_cast (by simpa using hn), by norm_num, by norm_num, by simp⟩
  have h1 : IsDouble 1 := by exact_mod_cast hd 1 (by norm_num)
  have h2 : IsDouble 2 := by exact_mod_cast hd 2 (by norm_num)
  have h3 : IsDouble 3 := by exact_mod_cast hd 3 (by norm_num)
  have h4 : IsDouble 4 := by exact_mod_cast hd 4 (by norm_num)
  have h100 : IsDouble 100 := by exact_mod_cast hd 100 (by norm_num)
  have h101 : IsDouble 101 := by exact_mod_cast hd 101 (by norm_num)
  obtain ⟨-, n, h, g1, g2⟩ := C114_compounds reference reference_conforms (fun _ => 0, fun _ => 0) 20
    [⟨b!"m", .matrix [[1, 3], [101, 4]], true⟩, ⟨b!"i", .integers [3, 4], false⟩] [⟨b!"m", .matrix [[1, 2], [100, 4]], true⟩, ⟨b!"i", .integers [3, -4], false⟩]
    (by
      intro c hc
      simp only [List.mem_cons, List.not_mem_nil, or_false] at hc
      rcases hc with rfl | rfl
      · exact ⟨(by decide : ∀ x ∈ b!"m", AttrChar x), by simp [h1, h3, h101, h4]⟩
      · exact ⟨(by decide : ∀ x ∈ b!"i", AttrChar x), by simp⟩)
    (by
      intro c hc
      simp only [List.mem_cons, List.not_mem_nil, or_false] at hc
      rcases hc with rfl | rfl
      · exact ⟨(by decide : ∀ x ∈ b!"m", AttrChar x), by simp [h1, h2, h100, h4]⟩
      · exact ⟨(by decide : ∀ x ∈ b!"i", AttrChar x), by simp⟩)
    (.cons ⟨rfl, rfl, rfl⟩ (.cons ⟨rfl, rfl, rfl⟩ .nil)) 0 (1 / 10) (by norm_num) (by norm_num) 2 (by decide) b!"/data" b!"/data" [] [] (by simp [Stops]) (by simp [Stops])
    b!"prog" b!"/f" b!"prog" b!"/f" plainWorld _ plain_comment (by decide) rfl (Or.inl rfl) _ rfl ⟨_, rfl⟩ (by
      obtain ⟨⟨r1, r2, -, -⟩, -⟩ := record_run_at 0 [b!"/data"] [] (by simp [Stops]) reference { num := Decimal.ieee, readXML := fun _ => .ok [], diff := Diff.diff (some (fun _ => 0, fun _ => 0)) 20 } 0
        (([⟨b!"m", .matrix [[1, 3], [101, 4]], true⟩, ⟨b!"i", .integers [3, 4], false⟩].flatMap Compound.items).map Item.call) 2 (by decide) b!"prog" b!"/f" plainWorld (by decide) rfl (Or.inl rfl)
      rw [← test_straight] at r1 r2
      exact ⟨r1, r2, rfl⟩)
  refine ⟨_, h.trans ?_⟩
  have e1 : ((([⟨b!"m", .matrix [[1, 3], [101, 4]], true⟩, ⟨b!"i", .integers [3, 4], false⟩] : List Compound).zip [⟨b!"m", .matrix [[1, 2], [100, 4]], true⟩, ⟨b!"i", .integers [3, -4], false⟩]).map
      fun p => differences (MustPass (1 / 10)) p.1 p.2).sum = 2 := by
    simp [differences, misses, SameInteger, SameNumber, MustPass, Close, List.filter_cons]
    norm_num [abs_of_pos]
  have e2 : ((([⟨b!"m", .matrix [[1, 3], [101, 4]], true⟩, ⟨b!"i", .integers [3, 4], false⟩] : List Compound).zip [⟨b!"m", .matrix [[1, 2], [100, 4]], true⟩, ⟨b!"i", .integers [3, -4], false⟩]).map
      fun p => differences (MayPass (1 / 10)) p.1 p.2).sum = 2 := by
    simp [differences, misses, SameInteger, SameNumber, MayPass, Close, List.filter_cons]
    norm_num [abs_of_pos]
  rw [e1] at g2
  rw [e2] at g1
  have : n = 2 := by omega
  rw [this]; rfl

/-- A region of one pixel and one of 2^32 + 1 pixels. -/
example : List.Forall₂ Wrapped [⟨b!"r", .region [0] [1], false⟩] [⟨b!"r", .region [0] [4294967297], false⟩] :=
  .cons ⟨rfl, rfl, .cons ⟨0, by norm_num⟩ .nil, .cons ⟨-1, by norm_num⟩ .nil⟩ .nil

end Verif.Whole
