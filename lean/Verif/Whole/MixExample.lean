import Verif.Whole.Mix
import Verif.Whole.FilesExample

/-!
# Property C132: concrete runs
-/

namespace Verif.Whole
open Verif.Measurement Verif.Measurement.Spec Verif.Regression Verif.Regression.Spec Verif.Decimal Verif.Xml Verif.Xml.Spec Spec RepoTests
open Verif.Itk.Spec (LookedUp InDir HasFile LastComponent)

/-- The text of a file. -/
def simpleText : Item := ⟨b!"T", .plain b!"this is\na simple file\n", true⟩

/-- The file. -/
def simpleFile : FileItem := ⟨b!"T", .text, b!"/t/data/plain.txt"⟩

theorem simpleText_valid : simpleText.Valid :=
  ⟨by decide, by decide, (by decide : ∀ c ∈ b!"this is\na simple file\n", Printable c)⟩

theorem simpleFile_valid : simpleFile.Valid := valid_of _ (by decide) (by decide) (by decide +kernel) (by decide +kernel)

/-- An integer and the text recorded; with a tolerance another integer and the file measured. -/
def textFirst (_ : List Str) (comparing : Bool) : List Act :=
  if comparing then [.tolerance (1 / 10), .measure (.value ⟨b!"i", .integer 101, true⟩), .measure (.file simpleFile)]
  else [.measure (.value ⟨b!"i", .integer 100, true⟩), .measure (.value simpleText)]

/-- The file recorded; the text measured. -/
def fileFirst (_ : List Str) (comparing : Bool) : List Act :=
  if comparing then [.measure (.value simpleText)] else [.measure (.file simpleFile)]

/-- The world after recording the first. -/
def textRecorded : World := (main (whole reference (fun _ => 0, fun _ => 0) 40) (actsTest textFirst) 3 [b!"prog", b!"-O", b!"/f"] ⟨{}, shop⟩).1.world

/-- The world after recording the second. -/
def fileRecorded : World := (main (whole reference (fun _ => 0, fun _ => 0) 40) (actsTest fileFirst) 3 [b!"prog", b!"-O", b!"/f"] ⟨{}, shop⟩).1.world

theorem textRecorded_files : textRecorded.fs.stat b!"/f" = some .regular ∧ textRecorded.openRead b!"/t/data/plain.txt" = some b!"this is\na simple file\n" ∧
    Path.isFile textRecorded.fs b!"/f" = true ∧ Path.isReadable textRecorded.fs b!"/f" = true := by
  unfold textRecorded
  refine ⟨?_, ?_, ?_, ?_⟩ <;> decide +kernel

theorem fileRecorded_files : fileRecorded.fs.stat b!"/f" = some .regular ∧ fileRecorded.openRead b!"plain.txt" = none ∧
    Path.isFile fileRecorded.fs b!"/f" = true ∧ Path.isReadable fileRecorded.fs b!"/f" = true ∧ Path.isDirectory fileRecorded.fs b!"/t/data" = true ∧
    Path.isReadable fileRecorded.fs b!"/t/data" = true := by
  unfold fileRecorded
  refine ⟨?_, ?_, ?_, ?_, ?_, ?_⟩ <;> decide +kernel

/-- A text recorded as a value is accepted from a file with its bytes. -/
example : (main (whole reference (fun _ => 0, fun _ => 0) 40) (actsTest textFirst) 3 [b!"prog", b!"-I", b!"/f"] ⟨{}, textRecorded⟩).2 = .ok 0 := by
  obtain ⟨-, n, h1, -, h2⟩ := C132_mixed reference reference_conforms (fun _ => 0, fun _ => 0) 40 (64 / 8388608) (64 / 8388608) [] [] textFirst b!"prog" [(b!"-O", b!"/f")] [] 3 shop shop_comment b!"/f"
    (by simp [IsOption]) (by simp [Refused]) (by simp [Stops, IsOption]) (by decide) (by decide) (by decide) (by decide) rfl (.inl (by decide)) textRecorded rfl
    b!"prog" [(b!"-I", b!"/f")] [] 3 textRecorded b!"/f" b!"/f" (by simp [IsOption]) (by simp [Refused, textRecorded_files]) (by simp [Stops, IsOption]) (by decide) (by decide) (by decide) (by decide)
    .asIs rfl [.value ⟨b!"i", .integer 100, true⟩, .value simpleText] [(1 / 10, .value ⟨b!"i", .integer 101, true⟩), (1 / 10, .file simpleFile)] rfl rfl
    (by
      intro x hx
      simp only [List.mem_cons, List.not_mem_nil, or_false] at hx
      rcases hx with rfl | rfl
      · exact ⟨by decide, by decide, (by norm_num : |(100 : Int)| < 2 ^ 30)⟩
      · exact simpleText_valid)
    (by
      intro y hy
      simp only [List.mem_cons, List.not_mem_nil, or_false] at hy
      rcases hy with rfl | rfl
      · exact ⟨⟨by decide, by decide, (by norm_num : |(101 : Int)| < 2 ^ 30)⟩, by norm_num, by norm_num⟩
      · exact ⟨simpleFile_valid, by norm_num, by norm_num⟩)
    (by
      intro x t i a b hq _ _ hb _
      simp only [List.zip_cons_cons, List.zip_nil_left, List.mem_cons, List.not_mem_nil, or_false, Prod.mk.injEq, Thing.value.injEq, reduceCtorEq, and_false] at hq
      rw [hq.2.2] at hb
      cases hb)
  rw [if_neg (by decide)] at h1
  simp only [refusals] at h2
  rw [if_pos ⟨rfl, by
    simp only
    rw [if_pos (by norm_num)]
    left
    norm_num [abs_of_pos, abs_of_neg]⟩, if_pos ⟨rfl, rfl, _, rfl, textRecorded_files.2.1⟩] at h2
  have : n = 0 := by omega
  subst this
  exact h1

/-- A text recorded as a file is not accepted as a value, though `-P` gives the directory of the file. -/
example : (main (whole reference (fun _ => 0, fun _ => 0) 40) (actsTest fileFirst) 3 [b!"prog", b!"-P", b!"/t/data", b!"-I", b!"/f"] ⟨{}, fileRecorded⟩).2 = .ok 1 := by
  obtain ⟨-, n, h1, h2, h3⟩ := C132_mixed reference reference_conforms (fun _ => 0, fun _ => 0) 40 (64 / 8388608) (64 / 8388608) [] [] fileFirst b!"prog" [(b!"-O", b!"/f")] [] 3 shop shop_comment b!"/f"
    (by simp [IsOption]) (by simp [Refused]) (by simp [Stops, IsOption]) (by decide) (by decide) (by decide) (by decide) rfl (.inl (by decide)) fileRecorded rfl
    b!"prog" [(b!"-P", b!"/t/data"), (b!"-I", b!"/f")] [] 3 fileRecorded b!"/f" b!"/f" (by simp [IsOption]) (by simp [Refused, fileRecorded_files]) (by simp [Stops, IsOption]) (by decide) (by decide) (by decide) (by decide)
    (.last _ _ (.inl ⟨⟨_, rfl⟩, rfl⟩)) rfl [.file simpleFile] [(64 / 8388608, .value simpleText)] rfl rfl
    (by
      intro x hx
      obtain rfl := List.mem_singleton.mp hx
      exact simpleFile_valid)
    (by
      intro y hy
      obtain rfl := List.mem_singleton.mp hy
      exact ⟨simpleText_valid, by norm_num, by norm_num⟩)
    (by
      intro x t i a b hq _ ha hb _
      simp only [List.zip_cons_cons, List.zip_nil_left, List.mem_cons, List.not_mem_nil, or_false, Prod.mk.injEq, Thing.value.injEq] at hq
      obtain ⟨rfl, rfl, rfl⟩ := hq
      cases hb
      have := Itk.last_baseName _ _ ha.2
      subst this
      have e : Regression.Spec.baseName simpleFile.path = b!"plain.txt" := by decide +kernel
      rw [e]
      exact ⟨by rw [Diff.Spec.Fits]; decide +kernel, by rw [Diff.topClear_iff]; decide +kernel, by rw [Diff.Spec.Enough]; decide +kernel⟩)
  have hno : ∀ V w2 dirs t, fileRecorded = w2 → ¬ Takes V w2 dirs t (.file simpleFile) (.value simpleText) := by
    rintro V w2 dirs t rfl ⟨-, -, a, last, -, g1, g2⟩
    have := Itk.last_baseName _ _ g1
    subst this
    have e : Regression.Spec.baseName simpleFile.path = b!"plain.txt" := by decide +kernel
    rw [e, fileRecorded_files.2.1] at g2
    cases g2
  rw [if_neg (by decide)] at h1
  simp only [refusals] at h2 h3
  rw [if_neg (hno _ _ _ _ rfl)] at h2 h3
  have : n = 1 := by omega
  subst this
  exact h1

/-- The text and the file. -/
def both : List Act := [.tolerance (1 / 10), .measure (.value simpleText), .measure (.file simpleFile)]

/-- The world after recording them. -/
def bothRecorded : World := (main (whole reference (fun _ => 0, fun _ => 0) 40) (actsTest fun _ _ => both) 3 [b!"prog", b!"-O", b!"/f"] ⟨{}, shop⟩).1.world

theorem bothRecorded_files : bothRecorded.fs.stat b!"/f" = some .regular ∧ bothRecorded.openRead b!"/t/data/plain.txt" = some b!"this is\na simple file\n" ∧
    Path.isFile bothRecorded.fs b!"/f" = true ∧ Path.isReadable bothRecorded.fs b!"/f" = true ∧ Path.isDirectory bothRecorded.fs b!"/t/data" = true ∧
    Path.isReadable bothRecorded.fs b!"/t/data" = true := by
  unfold bothRecorded
  refine ⟨?_, ?_, ?_, ?_, ?_, ?_⟩ <;> decide +kernel

/-- They pass against their recording if `-P` gives the directory of the file. -/
example : (main (whole reference (fun _ => 0, fun _ => 0) 40) (actsTest fun _ _ => both) 3 [b!"prog", b!"-P", b!"/t/data", b!"-I", b!"/f"] ⟨{}, bothRecorded⟩).2 = .ok 0 := by
  refine (C132_own_recording reference reference_conforms (fun _ => 0, fun _ => 0) 40 (64 / 8388608) [] [] both b!"prog" [(b!"-O", b!"/f")] [] 3 shop shop_comment b!"/f"
    (by simp [IsOption]) (by simp [Refused]) (by simp [Stops, IsOption]) (by decide) (by decide) (by decide) (by decide) rfl (.inl (by decide)) bothRecorded rfl
    b!"prog" [(b!"-P", b!"/t/data"), (b!"-I", b!"/f")] [] 3 bothRecorded b!"/f" b!"/f" (by simp [IsOption]) (by simp [Refused, bothRecorded_files]) (by simp [Stops, IsOption]) (by decide) (by decide) (by decide) (by decide)
    (by decide) (.last _ _ (.inl ⟨⟨_, rfl⟩, rfl⟩)) rfl ?_).mpr ?_
  · intro y hy
    simp only [both, underWay, List.mem_cons, List.not_mem_nil, or_false] at hy
    rcases hy with rfl | rfl
    · exact ⟨simpleText_valid, .inr (by norm_num)⟩
    · exact ⟨simpleFile_valid, .inr (by norm_num)⟩
  · intro x hx
    simp only [both, List.mem_cons, List.not_mem_nil, or_false, reduceCtorEq, false_or, Act.measure.injEq, Thing.file.injEq] at hx
    subst hx
    refine ⟨rfl, rfl, rfl, b!"plain.txt", b!"/t/data/plain.txt", _, ?_, .last _ _ (in_dir b!"/t/data" b!"plain.txt" (by decide) (by decide) (by decide)), bothRecorded_files.2.1, bothRecorded_files.2.1⟩
    have h := Itk.baseName_last simpleFile.path
    have e : Regression.Spec.baseName simpleFile.path = b!"plain.txt" := by decide +kernel
    rwa [e] at h

end Verif.Whole
