import Verif.Itk.ImagesSame

/-!
# C103: images that meet the hypotheses
-/

set_option linter.unusedSimpArgs false

namespace Verif.Itk
open Spec Verif.Path Verif.Measurement Verif.Measurement.Spec Verif.Regression Verif.Regression.Spec Verif.Xml Verif.Xml.Spec

/-- An image with `n` pixels of the value 7. -/
def row (n : Nat) : Image := ⟨[(0, n)], [some 1], [some 0], fun _ => some 7⟩

/-- Its file: the number of pixels. -/
def rowFile (im : Image) : Str := im.region.map fun x => UInt8.ofNat x.2

/-- Reading the file. -/
def readRow : Str → Option Loaded
  | [n] => some ⟨row n.toNat, b!"scalar", b!"double", 1⟩
  | _ => none

/-- The toolkit that reads these files. -/
def rowKit : Toolkit :=
  ⟨exact, fun r => ⟨1, r.pixels.map (0, ·), fun _ => none⟩, fun w n => (w.openRead n).bind readRow, ⟨fun _ => [], fun _ => [], fun _ => b!"R", natText, b!"out"⟩⟩

theorem rowKit_sound : Sound rowKit := by
  refine ⟨?_, ?_⟩
  · intro w n l h
    have : ∀ b, readRow b = some l → FromFile l.image := by
      intro b hb
      rcases b with _ | ⟨a, _ | ⟨b, c⟩⟩
      · cases hb
      · cases hb
        intro x hx
        simp only [row, List.mem_singleton] at hx
        rw [hx]
      · cases hb
    simp only [rowKit] at h
    rcases hr : w.openRead n with _ | b
    · rw [hr] at h; cases h
    · rw [hr] at h; exact this b h
  · intro r
    refine ⟨by simp [rowKit, Function.comp_def], ?_⟩
    intro e he
    simp only [rowKit, List.mem_map] at he
    obtain ⟨p, _, rfl⟩ := he
    show 0 < 1
    decide

theorem rowKit_reads : ReadsFiles rowKit readRow := fun _ _ => rfl

theorem row_survives (n : Nat) (h : n < 256) : Survives rowFile readRow (row n) :=
  ⟨_, rfl, by
    have : (UInt8.ofNat n).toNat = n := by simp; omega
    simp only [this]⟩

theorem row_self (n : Nat) (it : ImgTol) : Alike rowKit it (row n) (row n) := by
  refine ⟨rfl, show differVec [some 1] [some 1] = false by decide +kernel, show differVec [some 0] [some 0] = false by decide +kernel, ?_⟩
  rw [count, List.filter_eq_nil_iff.mpr]
  · simp
  · intro p hp
    simp only [decide_eq_true_eq]
    rintro ⟨-, h⟩
    apply h
    refine ⟨p, 7, 7, ?_, ?_, rfl, rfl, ?_⟩
    · exact (mem_pixels _ _).mp hp
    · exact near_self _ _
    · simp [rowKit, exact]
      nlinarith [mul_self_nonneg it.intensity]

theorem row_other (m n : Nat) (it : ImgTol) (h : m ≠ n) : ¬ Alike rowKit it (row m) (row n) := by
  rintro ⟨hs, -⟩
  simp [row, Region.size] at hs
  exact h hs

/-- The framework with this toolkit. -/
def rowEnv : Env := { smallEnv [] with image := some rowKit.imageEnv }

/-- Rows of 3 and 5 pixels are recorded; with 3 and 4 pixels the second does not pass, and one unmatched measurement is reported. -/
example : ∃ w1, (main (withXML reference rowEnv) (fun _ => imagesTest rowFile ⟨[b!"prog", b!"-O", b!"f"], 0⟩ [(b!"a", row 3), (b!"b", row 5)]) 2
      [b!"prog", b!"-O", b!"f"] ⟨{}, plainWorld⟩).1.world = w1 ∧
    (main (withXML reference rowEnv) (fun _ => imagesTest rowFile ⟨[b!"prog", b!"-I", b!"f"], 0⟩ [(b!"a", row 3), (b!"b", row 4)]) 2
      [b!"prog", b!"-I", b!"f"] ⟨{}, w1⟩).2 = .ok 1 := by
  refine ⟨_, rfl, ?_⟩
  have := (C103_same_directory rowKit rowKit_sound rowFile readRow rowKit_reads reference reference_conforms rowEnv rfl b!"prog" b!"f" [] (by simp [Stops])
    (by decide) (by decide) 2 (by decide) plainWorld plain_comment {} [(b!"a", row 3), (b!"b", row 5)] [(b!"a", row 3), (b!"b", row 4)] (by simp) (by simp) (by decide)
    (by simp only [List.mem_cons, List.not_mem_nil, or_false, forall_eq_or_imp, forall_eq]; exact ⟨row_survives 3 (by decide), row_survives 5 (by decide)⟩)
    (by simp only [List.mem_cons, List.not_mem_nil, or_false, forall_eq_or_imp, forall_eq]; exact ⟨row_survives 3 (by decide), row_survives 4 (by decide)⟩)
    [b!"prog_ae7d_1.mha", b!"prog_ae7d_2.mha"] [b!"prog_ad7d_1.mha", b!"prog_ad7d_2.mha"] (by unfold FilesOf; decide +kernel) (by unfold FilesOf; decide +kernel) rfl (.inl rfl)
    (fun _ _ => ⟨rfl, .inl rfl⟩) (by decide) _ rfl).2
  simp only [unlikeImages, if_pos (And.intro (rfl : b!"a" = b!"a") (row_self 3 {})), if_neg (fun h => row_other 5 4 {} (by decide) (And.right h))] at this
  exact this

/-- With the same arguments in both runs, rows of 9 and 4 pixels pass as well. -/
example : ∃ w1, (main (withXML reference rowEnv) (fun _ => imagesTest rowFile ⟨[b!"prog"], 0⟩ [(b!"a", row 3), (b!"b", row 5)]) 2
      [b!"prog"] ⟨{ outFileName := b!"f" }, plainWorld⟩).1.world = w1 ∧
    (main (withXML reference rowEnv) (fun _ => imagesTest rowFile ⟨[b!"prog"], 0⟩ [(b!"a", row 9), (b!"b", row 4)]) 2 [b!"prog"] ⟨{ inFileName := b!"f" }, w1⟩).2 = .ok 0 := by
  refine ⟨_, rfl, ?_⟩
  have := (C103_same_arguments rowKit rowKit_sound rowFile readRow rowKit_reads reference reference_conforms rowEnv rfl b!"prog" b!"f" [] (by simp [Stops])
    (by decide) (by decide) 2 (by decide) plainWorld plain_comment {} [(b!"a", row 3), (b!"b", row 5)] [(b!"a", row 9), (b!"b", row 4)] (by simp) (by simp) (by decide)
    (by simp only [List.mem_cons, List.not_mem_nil, or_false, forall_eq_or_imp, forall_eq]; exact ⟨row_survives 9 (by decide), row_survives 4 (by decide)⟩)
    [b!"prog_864c_1.mha", b!"prog_864c_2.mha"] [b!"prog_864c_1.mha", b!"prog_864c_2.mha"] (by unfold FilesOf; decide +kernel) (by unfold FilesOf; decide +kernel) rfl (.inl rfl)
    (fun _ _ => ⟨rfl, .inl rfl⟩) (by decide) _ rfl).2
  rw [C103_same_arguments_pass rowKit {} [(b!"a", row 3), (b!"b", row 5)] [(b!"a", row 9), (b!"b", row 4)] rfl
    (by simp only [List.mem_cons, List.not_mem_nil, or_false, forall_eq_or_imp, forall_eq]; exact ⟨row_self 9 {}, row_self 4 {}⟩)] at this
  exact this

/-- The hypotheses of `C103_own_files` are met. -/
example : ∃ s', (runProg rowEnv (imagesTest rowFile ⟨[b!"prog"], 0⟩ [(b!"a", row 3), (b!"b", row 5)]) ⟨{}, plainWorld⟩) = (s', .ok 0) ∧
    s'.world.openRead b!"prog_864c_1.mha" = some [3] ∧ s'.world.openRead b!"prog_864c_2.mha" = some [5] := by
  have hf : FilesOf ⟨[b!"prog"], 0⟩ 2 [b!"prog_864c_1.mha", b!"prog_864c_2.mha"] := by unfold FilesOf; decide +kernel
  obtain ⟨s', h, -⟩ := record_images rowEnv rowFile b!"prog" [] (by decide) [(b!"a", row 3), (b!"b", row 5)] 0 _ ⟨{}, plainWorld⟩ hf rfl rfl (fun _ _ => rfl)
  have := (C103_own_files rowEnv rowFile [b!"prog"] (by decide) 0 [(b!"a", row 3), (b!"b", row 5)] (by simp) _ hf ⟨{}, plainWorld⟩ s' 0 h (by simp)).1
  exact ⟨s', h, (this 0 _ _ rfl rfl).2.2 (.inl rfl), (this 1 _ _ rfl rfl).2.2 (.inl rfl)⟩

/-- The hypotheses of `C103_one_character` are met, also by a run that follows another. -/
example : ∀ f ∈ [b!"prog_ae7d_1.mha", b!"prog_ae7d_2.mha"], ∀ g ∈ [b!"prog_ad7d_1.mha", b!"prog_ad7d_2.mha"], baseName f ≠ baseName g :=
  C103_record_and_compare_files [b!"prog"] [b!"f"] 2 2 0 0 _ _ (by unfold FilesOf; decide +kernel) (by unfold FilesOf; decide +kernel)

end Verif.Itk
