import Verif.Whole.Files

/-!
# Property C130: concrete runs
-/

namespace Verif.Whole
open Verif.Measurement Verif.Measurement.Spec Verif.Regression Verif.Regression.Spec Verif.Decimal Verif.Xml Verif.Xml.Spec Spec RepoTests
open Verif.Itk.Spec (LookedUp InDir HasFile)

/-- The data of the tests, and a directory with another `plain.txt`. -/
def shop : World where
  fs := ⟨fun n => if n = b!"/t/data" ∨ n = b!"/other" then some .directory else if n = b!"/t/data/plain.txt" ∨ n = b!"/other/plain.txt" then some .regular else none,
    fun _ => true, fun _ => true, fun _ => true⟩
  bytes := fun n => if n = b!"/t/data/plain.txt" then b!"this is\na simple file\n" else if n = b!"/other/plain.txt" then b!"this is\nanother file\n" else []
  creatable := fun _ => true
  cout := []
  host := b!"host"
  time := b!"now\n"

theorem shop_comment : Comment (commentText shop) := ⟨by decide, noDouble_spec _ (by decide), by decide⟩

/-- The world after tfRegressionTestTest4 was recorded there. -/
def shopRecorded : World := (main (whole reference (fun _ => 0, fun _ => 0) 40) test4 3 [b!"prog", b!"-O", b!"/f"] ⟨{ searchPath := [b!"/t/data"] }, shop⟩).1.world

theorem shopRecorded_files : shopRecorded.fs.stat b!"/f" = some .regular ∧ shopRecorded.fs.stat b!"/t/data/plain.txt" = some .regular ∧ shopRecorded.fs.stat b!"/other/plain.txt" = some .regular ∧
    shopRecorded.openRead b!"/t/data/plain.txt" = some b!"this is\na simple file\n" ∧ shopRecorded.openRead b!"/other/plain.txt" = some b!"this is\nanother file\n" ∧
    Path.isFile shopRecorded.fs b!"/f" = true ∧ Path.isReadable shopRecorded.fs b!"/f" = true ∧ Path.isDirectory shopRecorded.fs b!"/other" = true ∧
    Path.isReadable shopRecorded.fs b!"/other" = true := by
  unfold shopRecorded
  refine ⟨?_, ?_, ?_, ?_, ?_, ?_, ?_, ?_, ?_⟩ <;> decide +kernel

theorem in_dir (d n : Str) (h : n.head? ≠ some 47) (hd : d ≠ []) (hl : d.getLast? ≠ some 47) : InDir d n (d ++ 47 :: n) :=
  .inr (.inr ⟨by rintro ⟨r, rfl⟩; exact h rfl, hd, d, ⟨0, by simp, hd, fun g => absurd g hl⟩, rfl⟩)

/-- Compared with the recording it passes. -/
example : (main (whole reference (fun _ => 0, fun _ => 0) 40) test4 3 [b!"prog", b!"-I", b!"/f"] ⟨{ searchPath := [b!"/t/data"] }, shopRecorded⟩).2 = .ok 0 := by
  have h := (C130_test4 reference reference_conforms (fun _ => 0, fun _ => 0) 40 (64 / 8388608) b!"prog" [(b!"-O", b!"/f")] [] 3 shop shop_comment b!"/f"
    (by simp [IsOption]) (by simp [Refused]) (by simp [Stops, IsOption]) (by decide) (by decide) (by decide) (by decide) rfl (.inl (by decide)) shopRecorded rfl
    b!"prog" [(b!"-I", b!"/f")] [] 3 shopRecorded b!"/f" b!"/f" (by simp [IsOption]) (by simp [Refused, shopRecorded_files]) (by simp [Stops, IsOption]) (by decide) (by decide) (by decide) (by decide)
    (.last _ _ (.inl ⟨⟨_, rfl⟩, rfl⟩)) rfl b!"/t/data/plain.txt" (.last _ _ (in_dir b!"/t/data" b!"plain.txt" (by decide) (by decide) (by decide)))).2
  rw [if_neg (by decide), if_pos ⟨_, shopRecorded_files.2.2.2.1, shopRecorded_files.2.2.2.1⟩] at h
  exact h

/-- With another file of that name in a directory given by `-P` it fails. -/
example : (main (whole reference (fun _ => 0, fun _ => 0) 40) test4 3 [b!"prog", b!"-P", b!"/other", b!"-I", b!"/f"] ⟨{ searchPath := [b!"/t/data"] }, shopRecorded⟩).2 = .ok 1 := by
  have h := (C130_test4 reference reference_conforms (fun _ => 0, fun _ => 0) 40 (64 / 8388608) b!"prog" [(b!"-O", b!"/f")] [] 3 shop shop_comment b!"/f"
    (by simp [IsOption]) (by simp [Refused]) (by simp [Stops, IsOption]) (by decide) (by decide) (by decide) (by decide) rfl (.inl (by decide)) shopRecorded rfl
    b!"prog" [(b!"-P", b!"/other"), (b!"-I", b!"/f")] [] 3 shopRecorded b!"/f" b!"/f" (by simp [IsOption]) (by simp [Refused, shopRecorded_files]) (by simp [Stops, IsOption]) (by decide) (by decide) (by decide) (by decide)
    (.here _ _ _ (.inl ⟨⟨_, rfl⟩, rfl⟩) shopRecorded_files.1) rfl b!"/other/plain.txt" (.here _ _ _ (in_dir b!"/other" b!"plain.txt" (by decide) (by decide) (by decide)) shopRecorded_files.2.2.1)).2
  rw [if_neg (by decide), if_neg] at h
  · exact h
  · rintro ⟨bytes, h1, h2⟩
    rw [shopRecorded_files.2.2.2.2.1] at h1
    rw [shopRecorded_files.2.2.2.1] at h2
    cases h1
    revert h2
    decide

/-- The world after tfRegressionTestOutputTest2 was recorded there. -/
def shopOutput : World := (main (whole reference (fun _ => 0, fun _ => 0) 40) outputTest2 3 [b!"prog", b!"-O", b!"/f"] ⟨{}, shop⟩).1.world

theorem shopOutput_files : shopOutput.fs.stat b!"/t/data/plain.txt" = some .regular ∧
    shopOutput.openRead b!"/t/data/plain.txt" = some b!"this is\na simple file\n" ∧
    Path.isFile shopOutput.fs b!"/f" = true ∧ Path.isReadable shopOutput.fs b!"/f" = true ∧ Path.isDirectory shopOutput.fs b!"/t/data" = true ∧
    Path.isReadable shopOutput.fs b!"/t/data" = true := by
  unfold shopOutput
  refine ⟨?_, ?_, ?_, ?_, ?_, ?_⟩ <;> decide +kernel

/-- Compared with its recording it fails for both images. -/
example : (main (whole reference (fun _ => 0, fun _ => 0) 40) outputTest2 3 [b!"prog", b!"-P", b!"/t/data", b!"-I", b!"/f"] ⟨{}, shopOutput⟩).2 = .ok 2 := by
  have h := (C130_outputTest2 reference reference_conforms (fun _ => 0, fun _ => 0) 40 (64 / 8388608) b!"prog" [(b!"-O", b!"/f")] [] 3 shop shop_comment b!"/f"
    (by simp [IsOption]) (by simp [Refused]) (by simp [Stops, IsOption]) (by decide) (by decide) (by decide) (by decide) rfl (.inl (by decide)) shopOutput rfl
    b!"prog" [(b!"-P", b!"/t/data"), (b!"-I", b!"/f")] [] 3 shopOutput b!"/f" b!"/f" (by simp [IsOption]) (by simp [Refused, shopOutput_files]) (by simp [Stops, IsOption]) (by decide) (by decide) (by decide) (by decide)
    (.last _ _ (.inl ⟨⟨_, rfl⟩, rfl⟩)) rfl b!"/t/data/plain.txt" (.last _ _ (in_dir b!"/t/data" b!"plain.txt" (by decide) (by decide) (by decide)))).2
  rw [if_neg (by decide), if_pos ⟨_, shopOutput_files.2.1, shopOutput_files.2.1⟩] at h
  exact h

end Verif.Whole
