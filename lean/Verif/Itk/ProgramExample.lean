import Verif.Itk.DataDirExample
import Verif.Itk.ProgramProps

/-!
# C110: cases that meet the hypotheses
-/

set_option linter.unusedSimpArgs false

namespace Verif.Itk
open Spec Verif.Path Verif.Path.Spec Verif.Measurement Verif.Measurement.Spec Verif.Regression Verif.Regression.Spec Verif.Xml Verif.Xml.Spec

/-- Readers that read 3 from everything. -/
def threes : Readers := ⟨fun _ => some 3, fun _ => some 3⟩

/-- An entry for an image. -/
def imageEntry (i : Nat) (file : Str) : Meas := .file { type := b!"image/itk", name := b!"ImageFile" ++ natText i, fileName := file }

/-- A baseline in `/base`, recorded rows of 3 and 5 pixels in `/data`, and rows of 3 and 4 pixels to be compared. -/
def rowsDisk : World := diskWith [(b!"/base/f", b!"doc"), (b!"/data/r0.mha", [3]), (b!"/data/r1.mha", [5]), (b!"a.mha", [3]), (b!"x/b.mha", [4])]

theorem rows_two : Reads threes.real threes.unsigned {} [b!"a.mha", b!"--radiusTolerance", b!"3", b!"x/b.mha"] [({}, b!"a.mha"), ({ radius := 3 }, b!"x/b.mha")] :=
  .image _ _ _ _ (by decide) (.radius _ _ _ _ _ rfl (.image _ _ _ _ (by decide) (.done _)))

theorem in_data (last : Str) (h : last.head? ≠ some 47) (fs : FileSys) : LookedUp fs last [b!"/data"] (b!"/data" ++ 47 :: last) :=
  .last _ _ (.inr (.inr ⟨by rintro ⟨r, rfl⟩; exact h rfl, by decide, b!"/data", ⟨0, by decide, by decide, by decide⟩, rfl⟩))

theorem rows_read : rowKit.read rowsDisk b!"/data/r0.mha" = readRow [3] ∧ rowKit.read rowsDisk b!"/data/r1.mha" = readRow [5] ∧ rowKit.read rowsDisk b!"a.mha" = readRow [3] ∧
    rowKit.read rowsDisk b!"x/b.mha" = readRow [4] ∧ rowKit.read rowsDisk b!"/data/r2.mha" = none := ⟨rfl, rfl, rfl, rfl, rfl⟩

theorem base_found (fs : FileSys) : LookedUp fs b!"/base/f" [b!"/data"] b!"/base/f" := .last _ _ (.inl ⟨⟨_, rfl⟩, rfl⟩)

theorem base_accepted : ∀ p ∈ [(b!"-I", b!"/base/f")], ¬ Refused rowsDisk.fs p := by
  intro p hp
  simp only [List.mem_singleton] at hp
  subst hp
  rintro (⟨-, h⟩ | ⟨h, -⟩)
  · exact h ⟨rfl, rfl⟩
  · revert h; decide

/-- The first image passes, the second does not: one is reported. -/
example : (imageCompare { rowEnv with readXML := fun _ => .ok [imageEntry 0 b!"r0.mha", imageEntry 1 b!"old/r1.mha"] } threes b!"/data" 9
    [b!"prog", b!"-I", b!"/base/f", b!"a.mha", b!"--radiusTolerance", b!"3", b!"x/b.mha"] rowsDisk).2 = .ok 1 :=
  C110_compare rowKit rowKit_sound _ readRow rowKit_reads rfl threes b!"/data" 9 rowsDisk b!"prog" [(b!"-I", b!"/base/f")] [b!"a.mha", b!"--radiusTolerance", b!"3", b!"x/b.mha"]
    (by simp [IsOption]) base_accepted (by decide) b!"/base/f" b!"/base/f" b!"doc" _ (by simp [lastValue]) (by decide) (by simp [lastValue]) (by simp [lastValue]) (base_found _) rfl rfl _ rows_two (some 1)
    (.alike 0 _ _ _ _ _ _ b!"r0.mha" b!"r0.mha" b!"/data/r0.mha" _ _ ⟨_, rfl, rfl, rfl, rfl⟩ ⟨by decide, .inl rfl⟩ (by decide) (in_data b!"r0.mha" (by decide) _) rows_read.1 rows_read.2.2.1 (row_self 3 _)
      (.unlike 1 _ _ _ _ _ (some 0) b!"old/r1.mha" b!"r1.mha" b!"/data/r1.mha" _ _ ⟨_, rfl, rfl, rfl, rfl⟩ ⟨by decide, .inr ⟨b!"old", rfl⟩⟩ (by decide) (in_data b!"r1.mha" (by decide) _) rows_read.2.1 rows_read.2.2.2.1
        (row_other 5 4 _ (by decide)) (.done _ _)))

/-- A recorded image is missing: -1, although the other one would pass. -/
example : (imageCompare { rowEnv with readXML := fun _ => .ok [imageEntry 0 b!"r0.mha", imageEntry 1 b!"r2.mha"] } threes b!"/data" 9
    [b!"prog", b!"-I", b!"/base/f", b!"a.mha", b!"--radiusTolerance", b!"3", b!"x/b.mha"] rowsDisk).2 = .ok (-1) :=
  C110_compare rowKit rowKit_sound _ readRow rowKit_reads rfl threes b!"/data" 9 rowsDisk b!"prog" [(b!"-I", b!"/base/f")] [b!"a.mha", b!"--radiusTolerance", b!"3", b!"x/b.mha"]
    (by simp [IsOption]) base_accepted (by decide) b!"/base/f" b!"/base/f" b!"doc" _ (by simp [lastValue]) (by decide) (by simp [lastValue]) (by simp [lastValue]) (base_found _) rfl rfl _ rows_two none
    (.alike 0 _ _ _ _ _ _ b!"r0.mha" b!"r0.mha" b!"/data/r0.mha" _ _ ⟨_, rfl, rfl, rfl, rfl⟩ ⟨by decide, .inl rfl⟩ (by decide) (in_data b!"r0.mha" (by decide) _) rows_read.1 rows_read.2.2.1 (row_self 3 _)
      (.unreadable 1 _ _ _ _ _ b!"r2.mha" b!"r2.mha" b!"/data/r2.mha" ⟨_, rfl, rfl, rfl, rfl⟩ ⟨by decide, .inl rfl⟩ (by decide) (in_data b!"r2.mha" (by decide) _) (.inl rows_read.2.2.2.2)))

/-- An entry of another kind and no entry: two failures, though the image would be the same. -/
example : (imageCompare { rowEnv with readXML := fun _ => .ok [.data { kind := .string, name := b!"ImageFile0", content := b!"r0.mha" }] } threes b!"/data" 9
    [b!"prog", b!"-I", b!"/base/f", b!"a.mha", b!"--radiusTolerance", b!"3", b!"x/b.mha"] rowsDisk).2 = .ok 2 :=
  C110_compare rowKit rowKit_sound _ readRow rowKit_reads rfl threes b!"/data" 9 rowsDisk b!"prog" [(b!"-I", b!"/base/f")] [b!"a.mha", b!"--radiusTolerance", b!"3", b!"x/b.mha"]
    (by simp [IsOption]) base_accepted (by decide) b!"/base/f" b!"/base/f" b!"doc" _ (by simp [lastValue]) (by decide) (by simp [lastValue]) (by simp [lastValue]) (base_found _) rfl rfl _ rows_two (some 2)
    (.otherEntry 0 _ _ _ _ (some 1) (by rintro ⟨_, f, h, -⟩; cases h) (.noEntry 1 _ _ (some 0) (.done _ _)))

/-- Both pass exactly if every entry names an image like the one given. -/
example : (imageCompare { rowEnv with readXML := fun _ => .ok [imageEntry 0 b!"r0.mha", imageEntry 1 b!"r1.mha"] } threes b!"/data" 9
    [b!"prog", b!"-I", b!"/base/f", b!"a.mha"] rowsDisk).2 = .ok 0 := by
  refine (C110_passes rowKit rowKit_sound _ readRow rowKit_reads rfl threes b!"/data" 9 rowsDisk b!"prog" [(b!"-I", b!"/base/f")] [b!"a.mha"]
    (by simp [IsOption]) base_accepted (by decide) b!"/base/f" b!"/base/f" b!"doc" _ (by simp [lastValue]) (by decide) (by simp [lastValue]) (by simp [lastValue]) (base_found _) rfl rfl ?_
    [({}, b!"a.mha")] (.image _ _ _ _ (by decide) (.done _))).mpr ?_
  · intro b hb j file hf hl
    obtain ⟨f, rfl, -, -, rfl⟩ := hf
    have := last_baseName _ _ hl
    simp only [imageEntry, List.mem_cons, Meas.file.injEq, List.not_mem_nil, or_false] at hb
    rcases hb with rfl | rfl <;> revert this <;> decide
  · intro k t file h
    match k with
    | 0 =>
      cases h
      exact ⟨_, b!"r0.mha", b!"r0.mha", b!"/data/r0.mha", _, _, rfl, ⟨_, rfl, rfl, rfl, rfl⟩, ⟨by decide, .inl rfl⟩, in_data b!"r0.mha" (by decide) _, rows_read.1, rows_read.2.2.1, row_self 3 _⟩
    | k + 1 => cases h

/-- 256 images without entries: 256 failures and the exit status of success. -/
example : (imageCompare rowEnv threes b!"/data" 9 (b!"prog" :: b!"-I" :: b!"/base/f" :: List.replicate 256 b!"none.mha") rowsDisk).2 = .ok 256 ∧ exitStatus 256 = 0 := by
  have hreads : ∀ n : Nat, Reads threes.real threes.unsigned {} (List.replicate n b!"none.mha") (List.replicate n ({}, b!"none.mha")) := by
    intro n
    induction n with
    | zero => exact .done _
    | succ n ih => exact .image _ _ _ _ (by decide) ih
  obtain ⟨h1, h2⟩ := C110_no_entries rowKit rowKit_sound rowEnv readRow rowKit_reads rfl threes b!"/data" 9 rowsDisk b!"prog" [(b!"-I", b!"/base/f")] (List.replicate 256 b!"none.mha")
    (by simp [IsOption]) base_accepted (by decide) b!"/base/f" b!"/base/f" b!"doc" (by simp [lastValue]) (by decide) (by simp [lastValue]) (by simp [lastValue]) (base_found _) rfl rfl _ (hreads 256)
  rw [List.length_replicate] at h1 h2
  exact ⟨h1, h2.mpr (Nat.dvd_refl _)⟩

/-- An unknown option after an image that passes. -/
example (v : Int) (h : (imageCompare { rowEnv with readXML := fun _ => .ok [imageEntry 0 b!"r0.mha"] } threes b!"/data" 9 [b!"prog", b!"-I", b!"/base/f", b!"a.mha", b!"-x"] rowsDisk).2 = .ok v) :
    v = 1 ∨ v = -1 :=
  C110_bad_arguments _ threes b!"/data" 9 rowsDisk b!"prog" [(b!"-I", b!"/base/f")] [b!"a.mha", b!"-x"] (by simp [IsOption]) base_accepted (by simp [Stops, IsOption]) (by decide) (by simp [lastValue]) (by
    rintro ⟨l, h⟩
    cases h with
    | image _ _ _ l _ h => cases h with | image _ _ _ _ h _ => exact h rfl) v h

/-- What recording two images, that do not exist, leaves. -/
noncomputable def recordedPair : World :=
  (imageCompare (withXML reference rowEnv) threes b!"/data" 2 [b!"prog", b!"-O", b!"f", b!"o/r0.mha", b!"r1.mha"] plainWorld).1.world

theorem pair_reads : Reads threes.real threes.unsigned {} [b!"o/r0.mha", b!"r1.mha"] [({}, b!"o/r0.mha"), ({}, b!"r1.mha")] :=
  .image _ _ _ _ (by decide) (.image _ _ _ _ (by decide) (.done _))

/-- The disk on which the comparison is made. -/
noncomputable def pairDisk : World :=
  diskWith [(b!"/base/f", (recordedPair.openRead b!"f").getD []), (b!"/data/r0.mha", [3]), (b!"/data/r1.mha", [5]), (b!"a.mha", [3]), (b!"b.mha", [5])]

/-- The recording succeeds, and the comparison, with the images put to `/data` afterwards. -/
example : (imageCompare (withXML reference rowEnv) threes b!"/data" 2 [b!"prog", b!"-O", b!"f", b!"o/r0.mha", b!"r1.mha"] plainWorld).2 = .ok 0 ∧
    (imageCompare (withXML reference rowEnv) threes b!"/data" 2 [b!"prog", b!"-I", b!"/base/f", b!"a.mha", b!"b.mha"] pairDisk).2 = .ok 0 := by
  have hrec := (C110_record (withXML reference rowEnv) threes b!"/data" 2 plainWorld b!"prog" [(b!"-O", b!"f")] [b!"o/r0.mha", b!"r1.mha"] (by simp [IsOption]) (by simp [Refused]) (by decide)
    b!"f" (by simp [lastValue]) (by decide) (by simp [lastValue]) (by simp [lastValue]) rfl (.inl rfl) _ pair_reads _ (entries_exist _ 0).choose_spec).2.1
  have h := C110_record_and_compare rowKit rowKit_sound readRow rowKit_reads reference reference_conforms rowEnv rfl threes b!"/data" 2 plainWorld plain_comment b!"prog" [(b!"-O", b!"f")]
    [b!"o/r0.mha", b!"r1.mha"] (by simp [IsOption]) (by simp [Refused]) (by decide) b!"f" (by simp [lastValue]) (by decide) (by simp [lastValue]) (by simp [lastValue]) rfl (.inl rfl)
    _ pair_reads (by
      intro y hy
      refine ⟨?_, fun hl => ?_⟩
      · revert y; decide
      · have := last_baseName _ _ hl
        clear hl
        revert y; decide)
    pairDisk b!"prog" [(b!"-I", b!"/base/f")] [b!"a.mha", b!"b.mha"] (by simp [IsOption]) (by
      intro p hp
      simp only [List.mem_singleton] at hp
      subst hp
      rintro (⟨-, h⟩ | ⟨h, -⟩)
      · exact h ⟨rfl, rfl⟩
      · revert h; decide) (by decide) b!"/base/f" b!"/base/f" (by simp [lastValue]) (by decide) (by simp [lastValue]) (by simp [lastValue]) (base_found _)
    (by
      have : pairDisk.openRead b!"/base/f" = some ((recordedPair.openRead b!"f").getD []) := rfl
      rw [this]
      simp only [recordedPair]
      rw [show [b!"prog", b!"-O", b!"f", b!"o/r0.mha", b!"r1.mha"] = b!"prog" :: (flat [(b!"-O", b!"f")] ++ [b!"o/r0.mha", b!"r1.mha"]) from rfl, hrec]
      rfl)
    [({}, b!"a.mha"), ({}, b!"b.mha")] (.image _ _ _ _ (by decide) (.image _ _ _ _ (by decide) (.done _)))
  refine ⟨h.1, h.2.mpr ?_⟩
  intro k t test hk
  match k with
  | 0 =>
    cases hk
    exact ⟨_, _, b!"r0.mha", b!"/data/r0.mha", ⟨row 3, b!"scalar", b!"double", 1⟩, ⟨row 3, b!"scalar", b!"double", 1⟩, rfl, ⟨by decide, .inr ⟨b!"o", rfl⟩⟩, in_data b!"r0.mha" (by decide) _, rfl, rfl, row_self 3 _⟩
  | 1 =>
    cases hk
    exact ⟨_, _, b!"r1.mha", b!"/data/r1.mha", ⟨row 5, b!"scalar", b!"double", 1⟩, ⟨row 5, b!"scalar", b!"double", 1⟩, rfl, ⟨by decide, .inl rfl⟩, in_data b!"r1.mha" (by decide) _, rfl, rfl, row_self 5 _⟩
  | k + 2 => cases hk

end Verif.Itk
