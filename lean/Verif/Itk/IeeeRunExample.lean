import Verif.Itk.IeeeRun
import Verif.Itk.ProgramExample

/-!
# C111: cases that meet the hypotheses
-/

set_option linter.unusedSimpArgs false

namespace Verif.Itk
open Spec Verif.Path Verif.Path.Spec Verif.Measurement Verif.Measurement.Spec Verif.Regression Verif.Regression.Spec Verif.Xml Verif.Xml.Spec
open Verif.Decimal (double Fp)

/-- A toolkit with the arithmetic of `double`s. -/
def doubleKit : Toolkit := { rowKit with arith := doubles id }

theorem doubleKit_sound : Sound doubleKit := rowKit_sound

theorem row_whole (n : Nat) : WholeNumbers 0 (row n) := by
  intro p x h
  cases h
  exact ⟨7, by norm_num, by norm_num⟩

theorem doubleKit_whole (w : World) (n : Str) (i : Loaded) (h : doubleKit.read w n = some i) : WholeNumbers 0 i.image := by
  simp only [doubleKit, rowKit] at h
  rcases hr : w.openRead n with _ | b
  · rw [hr] at h; cases h
  · rw [hr] at h
    rcases b with _ | ⟨a, _ | ⟨b, c⟩⟩
    · cases h
    · cases h; exact row_whole _
    · cases h

theorem row_exactly (n : Nat) (t : ImgTol) (h0 : 0 ≤ t.intensity) : AlikeExactly t (row n) (row n) := by
  refine ⟨rfl, show differVec [some 1] [some 1] = false by decide +kernel, show differVec [some 0] [some 0] = false by decide +kernel, ?_⟩
  rw [count, List.filter_eq_nil_iff.mpr]
  · simp
  · intro p hp
    simp only [decide_eq_true_eq]
    rintro ⟨c, x, hc, hx, h⟩
    cases hc; cases hx
    have := h p 7 ((mem_pixels _ _).mp hp) (near_self _ _) rfl
    simp at this
    linarith

/-- The program accepts the image, with the arithmetic of `double`s. -/
example : (imageCompare { rowEnv with readXML := fun _ => .ok [imageEntry 0 b!"r0.mha"], image := some doubleKit.imageEnv } threes b!"/data" 9
    [b!"prog", b!"-I", b!"/base/f", b!"a.mha"] rowsDisk).2 = .ok 0 := by
  refine (C111_program doubleKit doubleKit_sound id rfl _ readRow rowKit_reads rfl threes b!"/data" 9 rowsDisk b!"prog" [(b!"-I", b!"/base/f")] [b!"a.mha"]
    (by simp [IsOption]) base_accepted (by decide) b!"/base/f" b!"/base/f" b!"doc" _ (by simp [lastValue]) (by decide) (by simp [lastValue]) (by simp [lastValue]) (base_found _) rfl rfl ?_
    [({}, b!"a.mha")] (.image _ _ _ _ (by decide) (.done _)) ?_ (doubleKit_whole _)).mpr ?_
  · intro b hb j file hf hl
    obtain ⟨f, rfl, -, -, rfl⟩ := hf
    have := last_baseName _ _ hl
    simp only [imageEntry, List.mem_cons, Meas.file.injEq, List.not_mem_nil, or_false] at hb
    subst hb
    revert this
    decide
  · intro x hx
    simp only [List.mem_singleton] at hx
    subst hx
    exact ⟨⟨0, 0, by norm_num, by norm_num, by norm_num, by norm_num⟩, Or.inl rfl⟩
  · intro k t file h
    match k with
    | 0 =>
      cases h
      exact ⟨_, b!"r0.mha", b!"r0.mha", b!"/data/r0.mha", _, _, rfl, ⟨_, rfl, rfl, rfl, rfl⟩, ⟨by decide, .inl rfl⟩, in_data b!"r0.mha" (by decide) _, rows_read.1, rows_read.2.2.1, row_exactly 3 _ le_rfl⟩

/-- A pixel whose difference rounds to the tolerance is not counted, though it is larger: 1 + 2^-60 from 0, with tolerance 1. -/
example : ¬ FarApartRounded 1 0 ⟨[(0, 1)], [], [], fun _ => some (1 + 2 ^ (-60 : Int))⟩ ⟨[(0, 1)], [], [], fun _ => some 0⟩ [0] ∧
    FarApart 1 0 ⟨[(0, 1)], [], [], fun _ => some (1 + 2 ^ (-60 : Int))⟩ ⟨[(0, 1)], [], [], fun _ => some 0⟩ [0] := by
  constructor
  · rintro ⟨c, x, hc, hx, h⟩
    cases hc; cases hx
    have hr : Numbers.Spec.RoundedTo 53 (-1074) |(1 + 2 ^ (-60 : Int) : ℚ) - 0| (double.nearest |(1 + 2 ^ (-60 : Int) : ℚ) - 0|) :=
      Numbers.Format.nearest_rounded double (abs_nonneg _)
    have := h [0] 0 _ (by simp [Inside]) (by simp [Spec.Near]) rfl hr
    rw [show double.nearest |(1 + 2 ^ (-60 : Int) : ℚ) - 0| = 1 by decide +kernel] at this
    exact absurd this (lt_irrefl _)
  · refine ⟨_, _, rfl, rfl, ?_⟩
    intro q y _ _ hy
    cases hy
    norm_num

/-- Images of one pixel, a NaN beside a number: the two models agree on them, with any threads. -/
example (sqrt root) (n : Nat) (sched : Sched) (m : Index → Dbl) (m' : Index → Fp) : compareImage (doubles sqrt) ⟨n, sched, m⟩ ⟨[(0, 2)], [], [], fun p => if p = [0] then none else some 7⟩
      ⟨[(0, 2)], [], [], fun _ => some 5⟩ (some 1) 0 0 [(0, 0)] =
    Any.compareImage (Any.ieee root) ⟨n, sched, m'⟩ ⟨[(0, 2)], fun p => if p = [0] then .nan true else .finite false 7⟩ ⟨[(0, 2)], fun _ => .finite false 5⟩ (some ((1 : ℚ) : WithTop ℚ)) 0 0 [(0, 0)] := by
  refine Any.C111_model sqrt root _ _ rfl rfl _ _ _ _ rfl rfl ?_ ?_ 1 Any.one_double (by norm_num) (by decide +kernel) 0 0 _
  · intro p; exact Or.inr ⟨false, 5, rfl, rfl⟩
  · intro p
    by_cases hp : p = [0]
    · exact Or.inl ⟨true, by simp [hp], by simp [hp]⟩
    · exact Or.inr ⟨false, 7, by simp [hp], by simp [hp, Any.value]⟩

end Verif.Itk
