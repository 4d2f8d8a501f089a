import Verif.Itk.ImagesExample
import Verif.Itk.DataDirProps

/-!
# C107: cases that meet the hypotheses
-/

set_option linter.unusedSimpArgs false

namespace Verif.Itk
open Spec Verif.Path Verif.Path.Spec Verif.Measurement Verif.Measurement.Spec Verif.Regression Verif.Regression.Spec Verif.Xml Verif.Xml.Spec

/-- A disk with the given readable files. -/
def diskWith (files : List (Str × Str)) : World :=
  { plainWorld with
    fs := ⟨fun m => (files.lookup m).map fun _ => .regular, fun m => (files.lookup m).isSome, fun _ => true, fun _ => true⟩
    bytes := fun m => (files.lookup m).getD [] }

/-- A baseline beside the test is not read when the data directory has none. -/
example : (main (smallEnv []) (fun _ => .ret 0) 2 [b!"prog", b!"-I", b!"b.xml"] ⟨itkObject b!"/data/", diskWith [(b!"b.xml", b!"x")]⟩).2 = .ok (-1) :=
  ((C107_relative_baseline (smallEnv []) (fun _ => .ret 0) 2 (by decide) b!"/data/" b!"/data" ⟨1, by decide, by decide, by decide⟩ (diskWith [(b!"b.xml", b!"x")]) b!"prog" b!"b.xml" []
    (by simp [Stops]) (by rintro ⟨r, h⟩; revert h; simp) (by decide) (by decide)).1 (by decide)).1

/-- With one in the data directory the test is run. -/
example : ∃ s1 : St, s1.obj.input = [.data { kind := .string, name := b!"n", content := b!"y" }] ∧ s1.obj.searchPath = [b!"/data/"] ∧
    (tryBlock (smallEnv [.data { kind := .string, name := b!"n", content := b!"y" }]) (fun _ => .ret 7) 2 [b!"prog", b!"-I", b!"b.xml"]
      ⟨itkObject b!"/data/", diskWith [(b!"b.xml", b!"x"), (b!"/data/b.xml", b!"z")]⟩).2 = (7, none) := by
  obtain ⟨s1, h1, h2, h3, h4, h5, h6, h7, h8, h9⟩ := (C107_relative_baseline (smallEnv [.data { kind := .string, name := b!"n", content := b!"y" }]) (fun _ => .ret 7) 2 (by decide) b!"/data/" b!"/data"
    ⟨1, by decide, by decide, by decide⟩ (diskWith [(b!"b.xml", b!"x"), (b!"/data/b.xml", b!"z")]) b!"prog" b!"b.xml" []
    (by simp [Stops]) (by rintro ⟨r, h⟩; revert h; simp) (by decide) (by decide)).2 b!"z" _ (by decide) rfl
  refine ⟨s1, h2, h6, ?_⟩
  rw [h9]
  rfl

/-- The last of two directories given by `-P` is searched first. -/
example : LookedUp (diskWith [(b!"/a/b.xml", b!"x"), (b!"/c/b.xml", b!"y")]).fs b!"b.xml" ((values b!"-P" [(b!"-P", b!"/c"), (b!"-I", b!"b.xml"), (b!"-P", b!"/a")]).reverse ++ [b!"/data"]) b!"/a/b.xml" :=
  .here _ _ _ (.inr (.inr ⟨by rintro ⟨r, h⟩; revert h; simp, by decide, b!"/a", ⟨0, by decide, by decide, by decide⟩, by decide⟩)) (by unfold HasFile; decide)

/-- What is left by a recording of rows of 3 and 5 pixels. -/
noncomputable def recorded : World :=
  (main (withXML reference rowEnv) (fun _ => imagesTest rowFile ⟨[b!"prog", b!"-O", b!"f"], 0⟩ [(b!"a", row 3), (b!"b", row 5)]) 2
    [b!"prog", b!"-O", b!"f"] ⟨{ itkObject b!"/data" with imageTol := ⟨0, 0, 0⟩ }, plainWorld⟩).1.world

theorem recorded_images : recorded.openRead b!"prog_ae7d_1.mha" = some [3] ∧ recorded.openRead b!"prog_ae7d_2.mha" = some [5] := by
  unfold recorded
  constructor <;> decide +kernel

theorem recorded_document : recorded.openRead b!"f" = some (recorded.bytes b!"f") := by
  have h : recorded.fs.stat (cstr b!"f") = some .regular ∧ recorded.fs.canRead (cstr b!"f") = true := by
    unfold recorded
    constructor <;> decide +kernel
  rw [World.openRead, if_pos h]
  rfl

/-- The recording, with its document moved to `/base/f` and its images to `/data`. -/
noncomputable def moved : World :=
  diskWith [(b!"/base/f", recorded.bytes b!"f"), (b!"/data/prog_ae7d_1.mha", [3]), (b!"/data/prog_ae7d_2.mha", [5])]

/-- The recording of rows of 3 and 5 pixels, moved to `/base/f` and `/data`; with 3 and 4 pixels one image is not like the recorded one. -/
example : (main (withXML reference rowEnv) (fun _ => imagesTest rowFile ⟨[b!"/bin/test", b!"-I", b!"/base/f"], 0⟩ [(b!"a", row 3), (b!"b", row 4)]) 2
      [b!"/bin/test", b!"-I", b!"/base/f"] ⟨{ itkObject b!"/data" with imageTol := ⟨0, 0, 0⟩ }, moved⟩).2 = .ok 1 := by
  have h := (C107_kept_in_data_directory rowKit rowKit_sound rowFile readRow rowKit_reads reference reference_conforms rowEnv rfl b!"/data" ⟨0, 0, 0⟩ b!"prog" b!"f" [] (by simp [Stops])
    (by decide) (by decide) 2 (by decide) plainWorld plain_comment [(b!"a", row 3), (b!"b", row 5)] [(b!"a", row 3), (b!"b", row 4)] (by simp) (by simp) (by decide)
    (by simp only [List.mem_cons, List.not_mem_nil, or_false, forall_eq_or_imp, forall_eq]; exact ⟨row_survives 3 (by decide), row_survives 5 (by decide)⟩)
    (by simp only [List.mem_cons, List.not_mem_nil, or_false, forall_eq_or_imp, forall_eq]; exact ⟨row_survives 3 (by decide), row_survives 4 (by decide)⟩)
    [b!"prog_ae7d_1.mha", b!"prog_ae7d_2.mha"] (by unfold FilesOf; decide +kernel) rfl (.inl rfl) (fun _ _ => ⟨rfl, .inl rfl⟩) (by decide) recorded rfl
    b!"/bin/test" b!"/base/f" [] (by simp [Stops]) (by decide) ⟨_, rfl⟩ [b!"/bin/test_222a_1.mha", b!"/bin/test_222a_2.mha"] (by unfold FilesOf; decide +kernel) moved
    ⟨rfl, rfl, by rw [recorded_document]; rfl⟩ (by
      intro g hg g' h
      rw [inDir_append _ _ _ h]
      simp only [List.mem_cons, List.not_mem_nil, or_false] at hg
      rcases hg with rfl | rfl
      · rw [recorded_images.1]; exact ⟨rfl, by decide⟩
      · rw [recorded_images.2]; exact ⟨rfl, by decide⟩)
    (by
      intro g hg
      simp only [List.mem_cons, List.not_mem_nil, or_false] at hg
      rcases hg with rfl | rfl <;> exact ⟨rfl, .inl rfl⟩) (by decide)).2
  simp only [unlikeImages, if_pos (And.intro (rfl : b!"a" = b!"a") (row_self 3 ⟨0, 0, 0⟩)), if_neg (fun h => row_other 5 4 ⟨0, 0, 0⟩ (by decide) (And.right h))] at h
  exact h

/-- The same test with the images left beside it. -/
example : (main { rowEnv with readXML := fun _ => .ok [.file { type := b!"image/itk", name := b!"a", fileName := b!"prog_ae7d_1.mha" }] }
      (fun _ => imagesTest rowFile ⟨[b!"prog", b!"-I", b!"/base/f"], 0⟩ [(b!"a", row 3)]) 2
      [b!"prog", b!"-I", b!"/base/f"] ⟨{ itkObject b!"/data" with imageTol := ⟨0, 0, 0⟩ }, diskWith [(b!"/base/f", b!""), (b!"prog_ae7d_1.mha", [3])]⟩).2 = .ok (-1) :=
  C107_not_beside_the_test rowKit rowFile _ readRow rowKit_reads rfl b!"/data" ⟨0, 0, 0⟩ b!"prog" b!"/base/f" [] (by simp [Stops]) (by decide) ⟨_, rfl⟩ 2 (by decide)
    (diskWith [(b!"/base/f", b!""), (b!"prog_ae7d_1.mha", [3])]) ⟨rfl, rfl⟩ b!"" rfl { type := b!"image/itk", name := b!"a", fileName := b!"prog_ae7d_1.mha" } [] rfl rfl (by decide) (row 3) []
    b!"prog_983d_1.mha" (by unfold FilesOf; decide +kernel) rfl (by
      intro g hg
      rw [inDir_append _ _ _ hg]
      exact ⟨by decide, by decide⟩)

end Verif.Itk
