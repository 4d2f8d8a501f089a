import Verif.Itk.Files
import Verif.Itk.AnyPixelTypes
import Verif.Itk.Props

/-!
# C108: comparing image files by `CompareImage`
-/

namespace Verif.Itk.Any
open Verif.Itk.Spec (count Inside exact)
open Verif.Itk.Any.Spec

section
variable {V R O K : Type} [LinearOrder K] (X : PixelType V R O K)

/-- The images a reader delivers start at index 0. -/
def FromFile (i : Image V) : Prop := ∀ x ∈ i.region, x.1 = 0

/-- **C108.** The static comparison of two files throws exactly if one of them cannot be read; otherwise the result is the largest number if the sizes differ, and else the
number of pixels with differences beyond the tolerated number. -/
theorem C108_result (read : Str → Option (Image V)) (T : Threads O) (testName baselineName : Str) (intensity : Option K) (pixels radius : Nat)
    (hfile : ∀ n i, read n = some i → FromFile i) (hT : ∀ i, read baselineName = some i → Covers T i.region) (hcast : ∀ d, X.cast d ≠ none) :
    (Throws (compareFiles X read T testName baselineName intensity pixels radius) ↔ read testName = none ∨ read baselineName = none) ∧
    ∀ n, compareFiles X read T testName baselineName intensity pixels radius = .ok n ↔
      ∃ valid test, read baselineName = some valid ∧ read testName = some test ∧
        ((valid.region.size ≠ test.region.size ∧ n = ulongMax) ∨
         (valid.region.size = test.region.size ∧ n = count valid.region (Differs X { threshold := intensity, radius := radius } valid test) - pixels)) := by
  rw [compareFiles]
  cases ht : read testName with
  | none => exact ⟨⟨fun _ => .inl rfl, fun _ => ⟨_, rfl⟩⟩, fun n => ⟨fun h => (nomatch h), fun ⟨_, _, _, h, _⟩ => by cases h⟩⟩
  | some test =>
    cases hb : read baselineName with
    | none => exact ⟨⟨fun _ => .inr rfl, fun _ => ⟨_, rfl⟩⟩, fun n => ⟨fun h => (nomatch h), fun ⟨_, _, h, _⟩ => by cases h⟩⟩
    | some valid =>
      by_cases hs : valid.region.size = test.region.size
      · have hr : valid.region = test.region := region_of_size _ _ (hfile _ _ hb) (hfile _ _ ht) hs
        simp only [C104_compare X T valid test intensity pixels radius hr (hT valid hb) hcast]
        refine ⟨⟨fun ⟨_, h⟩ => (nomatch h), fun h => by rcases h with h | h <;> cases h⟩, fun n => ?_⟩
        constructor
        · intro h; cases h; exact ⟨valid, test, rfl, rfl, .inr ⟨hs, rfl⟩⟩
        · rintro ⟨v, t, hv, ht, h⟩
          cases hv; cases ht
          rcases h with ⟨h, _⟩ | ⟨_, rfl⟩
          · exact absurd hs h
          · rfl
      · simp only [C104_sizes_differ X T valid test intensity pixels radius hs]
        refine ⟨⟨fun ⟨_, h⟩ => (nomatch h), fun h => by rcases h with h | h <;> cases h⟩, fun n => ?_⟩
        constructor
        · intro h; cases h; exact ⟨valid, test, rfl, rfl, .inl ⟨hs, rfl⟩⟩
        · rintro ⟨v, t, hv, ht, h⟩
          cases hv; cases ht
          rcases h with ⟨_, rfl⟩ | ⟨h, _⟩
          · rfl
          · exact absurd h hs

/-- **C108.** The result is 0, "the same", exactly if both files can be read, have the same size, and at most the tolerated number of pixels differ. -/
theorem C108_same_iff (read : Str → Option (Image V)) (T : Threads O) (testName baselineName : Str) (intensity : Option K) (pixels radius : Nat)
    (hfile : ∀ n i, read n = some i → FromFile i) (hT : ∀ i, read baselineName = some i → Covers T i.region) (hcast : ∀ d, X.cast d ≠ none) :
    compareFiles X read T testName baselineName intensity pixels radius = .ok 0 ↔
      ∃ valid test, read baselineName = some valid ∧ read testName = some test ∧ valid.region.size = test.region.size ∧
        count valid.region (Differs X { threshold := intensity, radius := radius } valid test) ≤ pixels := by
  rw [(C108_result X read T testName baselineName intensity pixels radius hfile hT hcast).2]
  constructor
  · rintro ⟨v, t, hv, ht, ⟨_, h⟩ | ⟨hs, h⟩⟩
    · exact absurd h (by decide)
    · exact ⟨v, t, hv, ht, hs, by omega⟩
  · rintro ⟨v, t, hv, ht, hs, h⟩
    exact ⟨v, t, hv, ht, .inr ⟨hs, by omega⟩⟩

/-- **C108.** The form with a region: whatever the region, unless it is the default one, the whole test image is compared with the part of the baseline at the same place,
without tolerances; if the test image is not inside the baseline, it throws. -/
theorem C108_region (T : Threads O) (valid test : Image V) (region : Region) (h : region ≠ Region.default test.region.length)
    (hT : Covers T test.region) (hcast : ∀ d, X.cast d ≠ none) :
    (valid.region.contains test.region = true → compareRegion X T test valid region =
      .ok (count test.region (Differs X { threshold := X.noMagnitude, radius := 0 } { valid with region := test.region } test))) ∧
    (valid.region.contains test.region = false → Throws (compareRegion X T test valid region)) := by
  rw [compareRegion, compareImage, if_pos h]
  refine ⟨fun hin => ?_, fun hin => ?_⟩
  · rw [if_pos hin]
    obtain ⟨⟨n, out⟩, hf⟩ := ((C104_defined X { threshold := X.noMagnitude, radius := 0 } T { valid with region := test.region } test hT).2
      (contains_refl _)).1 (fun p q _ _ _ => hcast _)
    rw [hf, finish, beyond, (C104_result X _ T { valid with region := test.region } test hT n out hf).1]
    simp
  · rw [if_neg (by simp [hin])]
    exact ⟨_, rfl⟩

/-- **C69, negative.** A pixel that differs counts wherever it is: also outside the region given. -/
theorem C69_outside_counts (T : Threads O) (valid test : Image V) (region : Region) (h : region ≠ Region.default test.region.length)
    (hT : Covers T test.region) (hcast : ∀ d, X.cast d ≠ none) (hin : valid.region.contains test.region = true) (p : Index) (hp : p ∈ test.region.pixels)
    (hd : Differs X { threshold := X.noMagnitude, radius := 0 } { valid with region := test.region } test p) :
    ∃ n, 0 < n ∧ compareRegion X T test valid region = .ok n :=
  ⟨_, List.length_pos_of_mem (List.mem_filter.mpr ⟨hp, by simpa using hd⟩), (C108_region X T valid test region h hT hcast).1 hin⟩

end

/-- The images of a reader without their geometry. -/
def bare (read : Str → Option Itk.Image) (n : Str) : Option (Image Dbl) := (read n).map fun i => ⟨i.region, i.pixel⟩

/-- **C108.** The comparison in a run accepts what the static comparison of the files accepts for twice the tolerated number of pixels, provided the spacings agree and
the origin of the baseline is a number: the static comparison does not look at the geometry, and applies the tolerance once. -/
theorem C108_run_and_static (A : Arith) (T : Itk.Threads) (read : Str → Option Itk.Image) (testName baselineName : Str) (threshold : ℚ) (pixels radius : Nat)
    (hfile : ∀ n i, read n = some i → Itk.FromFile i) (hT : ∀ i, read baselineName = some i → Itk.Spec.Covers T i.region) :
    regressionTestImage A T read testName baselineName (some threshold) pixels radius = .ok 0 ↔
      compareFiles (scalar A) (bare read) ⟨T.n, T.sched, T.memory⟩ testName baselineName (some threshold) (2 * pixels) radius = .ok 0 ∧
      ∃ valid test, read baselineName = some valid ∧ read testName = some test ∧ differVec valid.spacing test.spacing = false ∧
        differVec valid.origin valid.origin = false := by
  rw [C50_passes_iff A T read testName baselineName threshold pixels radius hfile hT]
  cases hb : read baselineName with
  | none => simp
  | some valid =>
    cases ht : read testName with
    | none => simp
    | some test =>
      have e : compareFiles (scalar A) (bare read) ⟨T.n, T.sched, T.memory⟩ testName baselineName (some threshold) (2 * pixels) radius =
          Itk.compareImage A T test valid (some threshold) (2 * pixels) radius (Region.default test.region.length) := by
        rw [C104_scalar]
        simp [compareFiles, bare, hb, ht]
      rw [e]
      simp only [Option.some.injEq, exists_eq_left', exists_and_left]
      by_cases hs : valid.region.size = test.region.size
      · have hr : valid.region = test.region := region_of_size _ _ (hfile _ _ hb) (hfile _ _ ht) hs
        rw [C50_compare_image A T valid test threshold (2 * pixels) radius hr (hT valid hb)]
        simp only [hs, true_and, Except.ok.injEq]
        constructor
        · rintro ⟨h1, h2, h3⟩; exact ⟨by omega, h1, h2⟩
        · rintro ⟨h3, h1, h2⟩; exact ⟨h1, h2, by omega⟩
      · rw [(C51_sizes_differ A T read testName baselineName (some threshold) (2 * pixels) radius valid test hb ht hs).2]
        simp [hs, ulongMax]

/-- The hypotheses are met: of two files with two pixels that differ and other origins, the static comparison with one tolerated pixel reports one too many, the comparison
in a run accepts them. -/
example : compareFiles (scalar exact) (bare smallRead) ⟨1, [(0, [0]), (0, [1]), (0, [2])], fun _ => none⟩ b!"test" b!"base" (some 0) 1 0 = .ok 1 ∧
    compareFiles (scalar exact) (bare smallRead) ⟨1, [(0, [0]), (0, [1]), (0, [2])], fun _ => none⟩ b!"test" b!"base" (some 0) 2 0 = .ok 0 ∧
    regressionTestImage exact oneThread smallRead b!"test" b!"base" (some 0) 1 0 = .ok 0 ∧
    (∀ n i, smallRead n = some i → Itk.FromFile i) ∧ (∀ i, smallRead b!"base" = some i → Itk.Spec.Covers oneThread i.region) ∧
    (∀ d, (scalar exact).cast d ≠ none) ∧
    compareRegion (scalar exact) ⟨1, [(0, [1]), (0, [2])], fun _ => none⟩ ⟨[(1, 2)], fun p => if p = [2] then some 0 else some 5⟩ ⟨[(0, 3)], fun _ => some 0⟩ [(7, 1)] = .ok 1 := by
  refine ⟨by decide +kernel, by decide +kernel, by decide +kernel, ?_, ?_, by simp [scalar], by decide +kernel⟩
  · intro n i h
    simp only [smallRead] at h
    repeat' split at h
    all_goals first
      | (cases h; simp [Itk.FromFile])
      | cases h
  · intro i h
    have : i.region = [(0, 3)] := by
      simp only [smallRead, if_true, Option.some.injEq] at h
      rw [← h]
    rw [this]
    exact ⟨by decide, by decide⟩

end Verif.Itk.Any
