import Verif.Numbers.Model
import Verif.Numbers.RealLemmas
import Verif.Regression.ArgsProps
import Verif.Itk.InsightProps
import Verif.Decimal.Env

/-!
# C97: numbers in texts and on the command line
-/

namespace Verif.Numbers
open Spec Verif.Measurement Verif.Measurement.Spec Verif.Decimal Verif.Regression Verif.Regression.Spec Verif.Itk Verif.Itk.Spec

/-- **C97.** A text begins with at most one integer and at most one real number, and rounding has one result. -/
theorem C97_unambiguous : (∀ s v v', Numeral s v → Numeral s v' → v = v') ∧ (∀ s q q', Spec.Real s q → Spec.Real s q' → q = q') ∧
    ∀ p e q r r', RoundedTo p e q r → RoundedTo p e q r' → r = r' := by
  refine ⟨fun s v v' h h' => ?_, fun s q q' h h' => ?_, fun _ _ _ _ _ => roundedTo_unique⟩
  · rw [← readInt_iff] at h h'
    rw [h] at h'; injection h'
  · rw [← convert_iff] at h h'
    rw [h] at h'; injection h'

/-- **C97.** The value of an integer measurement is the `int` nearest to the integer its content begins with, 0 if it begins with none. -/
theorem C97_integer (content : Str) : (∀ v, Numeral content v → Nearest (-2147483648) 2147483647 v (getInteger content)) ∧
    ((∀ v, ¬ Numeral content v) → getInteger content = 0) := by
  constructor
  · intro v hv
    rw [getInteger, (readInt_iff content v).mpr hv]
    simp only [Nearest, intMin, intMax]
    refine ⟨?_, ?_, ?_, ?_, ?_⟩ <;> omega
  · intro h
    rw [getInteger, (readInt_none content).mpr h]

/-- **C97.** The value of a boolean measurement is true exactly if its content begins with an integer other than 0. -/
theorem C97_boolean (content : Str) : getBoolean content = true ↔ ∃ v, Numeral content v ∧ v ≠ 0 := by
  rw [getBoolean]
  cases h : readInt content with
  | none =>
    refine ⟨fun h => (by cases h), fun ⟨v, hv, _⟩ => absurd hv ((readInt_none content).mp h v)⟩
  | some v =>
    have hv := (readInt_iff content v).mp h
    refine ⟨fun h => ⟨v, hv, by simpa using h⟩, fun ⟨w, hw, h0⟩ => ?_⟩
    have : v = w := C97_unambiguous.1 _ _ _ hv hw
    simpa [this] using h0

theorem read_signed (F : Format) (s : Str) (q : ℚ) (h : Spec.Real s q) : F.read s =
    if F.nearest |q| ≤ F.max then Format.signedNearest F q else if q < 0 then -F.max else F.max := by
  have e : readExact s = q := by rw [readExact, (convert_iff s q).mpr h]; rfl
  rw [Format.read, e, Format.signedNearest]
  by_cases hm : F.nearest |q| ≤ F.max
  · rw [if_pos hm, min_eq_left hm]
  · rw [if_neg hm, min_eq_right (not_le.mp hm).le]

/-- **C97.** The value of a double measurement is the number its content begins with, rounded to a double; if that is too large, the largest or least double; 0 if
the content begins with no number. -/
theorem C97_double (content : Str) :
    (∀ q, Spec.Real content q → |q| < (2 ^ 53 - 1 / 2) * 2 ^ (971 : Int) → RoundedTo 53 (-1074) q (ieee.readDouble content)) ∧
    (∀ q, Spec.Real content q → (2 ^ 53 - 1 / 2) * 2 ^ (971 : Int) ≤ |q| → ieee.readDouble content = if q < 0 then -((2 ^ 53 - 1) * 2 ^ (971 : Int)) else (2 ^ 53 - 1) * 2 ^ (971 : Int)) ∧
    ((∀ q, ¬ Spec.Real content q) → ieee.readDouble content = 0) := by
  refine ⟨fun q h hq => ?_, fun q h hq => ?_, fun h => ?_⟩
  · show RoundedTo 53 (-1074) q (double.read content)
    rw [read_signed double content q h, if_pos ((double_overflow (abs_nonneg q)).mpr hq)]
    exact Format.signedNearest_rounded double q
  · show double.read content = _
    rw [read_signed double content q h, if_neg (fun hc => absurd ((double_overflow (abs_nonneg q)).mp hc) (not_lt.mpr hq))]
    rfl
  · show double.read content = _
    have e : readExact content = 0 := by rw [readExact, (convert_none content).mpr h]; rfl
    rw [Format.read, e]
    rw [abs_zero, double.nearest_zero, if_neg (lt_irrefl _), min_eq_left]
    decide +kernel

/-- **C97.** The same for float measurements. -/
theorem C97_float (content : Str) :
    (∀ q, Spec.Real content q → |q| < (2 ^ 24 - 1 / 2) * 2 ^ (104 : Int) → RoundedTo 24 (-149) q (ieee.readSingle content)) ∧
    (∀ q, Spec.Real content q → (2 ^ 24 - 1 / 2) * 2 ^ (104 : Int) ≤ |q| → ieee.readSingle content = if q < 0 then -((2 ^ 24 - 1) * 2 ^ (104 : Int)) else (2 ^ 24 - 1) * 2 ^ (104 : Int)) ∧
    ((∀ q, ¬ Spec.Real content q) → ieee.readSingle content = 0) := by
  refine ⟨fun q h hq => ?_, fun q h hq => ?_, fun h => ?_⟩
  · show RoundedTo 24 (-149) q (single.read content)
    rw [read_signed single content q h, if_pos ((single_overflow (abs_nonneg q)).mpr hq)]
    exact Format.signedNearest_rounded single q
  · show single.read content = _
    rw [read_signed single content q h, if_neg (fun hc => absurd ((single_overflow (abs_nonneg q)).mp hc) (not_lt.mpr hq))]
    rfl
  · show single.read content = _
    have e : readExact content = 0 := by rw [readExact, (convert_none content).mpr h]; rfl
    rw [Format.read, e]
    rw [abs_zero, single.nearest_zero, if_neg (lt_irrefl _), min_eq_left]
    decide +kernel

/-! ## The command line -/

/-- **C97.** The number expected by `-R` is the integer its value begins with, made a `long` and cut to an `int`; 0 if it begins with none. -/
theorem C97_expected (value : Str) :
    (∀ v, Numeral value v → ∃ l, Nearest (-9223372036854775808) 9223372036854775807 v l ∧
      -2147483648 ≤ strtolInt value ∧ strtolInt value ≤ 2147483647 ∧ (4294967296 : Int) ∣ l - strtolInt value) ∧
    ((∀ v, ¬ Numeral value v) → strtolInt value = 0) := by
  constructor
  · intro v hv
    rw [strtolInt, (readInt_iff value v).mpr hv]
    refine ⟨max (-9223372036854775808) (min 9223372036854775807 v), ?_, ?_⟩
    · simp only [Nearest]
      refine ⟨?_, ?_, ?_, ?_, ?_⟩ <;> omega
    · simp only [longToInt]
      omega
  · intro h
    rw [strtolInt, (readInt_none value).mpr h]

/-- **C97.** A number of pixels or a radius is accepted exactly if the value begins with an integer of absolute value below 2^32; a negative one counts from 2^32 down. -/
theorem C97_unsigned (arg : Str) (n : Nat) :
    readers.unsigned arg = some n ↔ ∃ v, Numeral (cstr arg) v ∧ |v| < 2 ^ 32 ∧ (0 ≤ v → (n : Int) = v) ∧ (v < 0 → (n : Int) = 2 ^ 32 + v) := by
  show readUnsigned arg = some n ↔ _
  rw [readUnsigned]
  have ha : ∀ v : Int, |v| = (v.natAbs : Int) := fun v => Int.abs_eq_natAbs v
  cases h : readInt (cstr arg) with
  | none => exact ⟨fun h => (by cases h), fun ⟨v, hv, _⟩ => absurd hv ((readInt_none _).mp h v)⟩
  | some v =>
    have hv := (readInt_iff _ v).mp h
    simp only
    constructor
    · intro hn
      split at hn
      · next hlt =>
        injection hn with hn
        exact ⟨v, hv, by rw [ha]; omega, by omega, by omega⟩
      · cases hn
    · rintro ⟨w, hw, h1, h2, h3⟩
      have : v = w := C97_unambiguous.1 _ _ _ hv hw
      subst this
      rw [ha] at h1
      rw [if_pos (by omega)]
      congr 1
      omega

/-- **C97.** An intensity is accepted exactly if the value begins with a number that does not round to more than the largest double, and it is that number rounded. -/
theorem C97_intensity (arg : Str) (x : ℚ) :
    readers.real arg = some x ↔ ∃ q, Spec.Real (cstr arg) q ∧ |q| < (2 ^ 53 - 1 / 2) * 2 ^ (971 : Int) ∧ RoundedTo 53 (-1074) q x := by
  show readReal arg = some x ↔ _
  rw [readReal]
  cases h : convert (field ((cstr arg).dropWhile isBlank)) with
  | none => exact ⟨fun h => (by cases h), fun ⟨v, hv, _⟩ => absurd hv ((convert_none _).mp h v)⟩
  | some q =>
    have hq := (convert_iff _ q).mp h
    have hr := Format.signedNearest_rounded double q
    simp only
    constructor
    · intro hn
      split at hn
      · next hlt =>
        injection hn with hn
        refine ⟨q, hq, (double_overflow (abs_nonneg q)).mp hlt, ?_⟩
        rw [← hn]; exact hr
      · cases hn
    · rintro ⟨w, hw, h1, h2⟩
      have : q = w := C97_unambiguous.2.1 _ _ _ hq hw
      subst this
      rw [if_pos ((double_overflow (abs_nonneg q)).mpr h1)]
      congr 1
      exact roundedTo_unique hr h2

/-- The decimal text of a number of pixels below 2^32 is read as it; with a minus sign before it, as 2^32 minus it. -/
theorem C97_unsigned_text (n : Nat) (h : n < 2 ^ 32) : readers.unsigned (natText n) = some n ∧ (0 < n → readers.unsigned (b!"-" ++ natText n) = some (2 ^ 32 - n)) := by
  obtain ⟨h1, h2, h3, -⟩ := natText_spec n
  have hz : ∀ s : Str, (∀ c ∈ s, Digit c) → cstr s = s ∧ cstr (b!"-" ++ s) = b!"-" ++ s := by
    intro s hs
    have : ∀ s : Str, (∀ c ∈ s, c ≠ 0) → cstr s = s := by
      intro s hs
      rw [cstr]
      induction s with
      | nil => rfl
      | cons a s ih => rw [List.takeWhile_cons, if_pos (by simpa using hs a (by simp)), ih fun c hc => hs c (by simp [hc])]
    have hd : ∀ c ∈ s, c ≠ 0 := fun c hc h0 => by
      have := hs c hc
      rw [h0] at this; exact absurd this (by unfold Digit; decide)
    refine ⟨this s hd, this _ fun c hc => ?_⟩
    rcases List.mem_append.mp hc with hc | hc
    · have : c = 45 := by simpa using hc
      rw [this]; decide
    · exact hd c hc
  have hd : ∀ c ∈ natText n, Digit c := h2
  have hn : Numeral (natText n) n := ⟨[], [], natText n, [], by simp, by simp, h1, hd, by simp, Or.inr ⟨Or.inl rfl, by rw [h3]⟩⟩
  have hm : Numeral (b!"-" ++ natText n) (-n) := ⟨[], b!"-", natText n, [], by simp, by simp, h1, hd, by simp, Or.inl ⟨rfl, by rw [h3]⟩⟩
  constructor
  · rw [C97_unsigned, (hz _ hd).1]
    exact ⟨n, hn, by rw [abs_of_nonneg (by omega)]; exact_mod_cast h, fun _ => rfl, by omega⟩
  · intro h0
    rw [C97_unsigned, (hz _ hd).2]
    exact ⟨-n, hm, by rw [abs_neg, abs_of_nonneg (by omega)]; exact_mod_cast h, by omega, fun _ => by omega⟩

/-- **C97, negative.** With the number of pixels -1 the image comparison program passes for any two images that can be read and have the same size and
spacing, whatever their pixels are, unless the images are larger than 2^33 - 2 pixels. -/
theorem C97_pixels_minus_one (I : Toolkit) (hI : Sound I) (env : Env) (henv : env.image = some I.imageEnv) (prog value image : Str)
    (hval : Numeral (cstr value) (-1)) (himg : image.head? ≠ some 45) (s : St) (v : Int)
    (hv : (runProg env (imageTest readers [prog, b!"--numberOfPixelTolerance", value, image]) s).2 = .ok v) :
    v = 0 ∧ ∃ o, observed env (imageTest readers [prog, b!"--numberOfPixelTolerance", value, image]) s = [o] ∧
      ∀ (f : FileM) valid test, f.name = b!"ImageFile0" → f.type = b!"image/itk" →
        I.read o.world (cstr (located o.world o.path f.fileName)) = some valid → I.read o.world (cstr image) = some test →
        valid.image.region.size = test.image.region.size → differVec valid.image.spacing test.image.spacing = false →
        differVec valid.image.origin valid.image.origin = false → valid.image.region.pixels.length ≤ 2 ^ 33 - 2 → Agree env (.file f) o := by
  have hu : readers.unsigned value = some 4294967295 := by
    rw [C97_unsigned]; exact ⟨-1, hval, by norm_num, by omega, by omega⟩
  obtain ⟨h1, h2⟩ := C73_images_measured readers env prog [b!"--numberOfPixelTolerance", value, image] [({ pixels := 4294967295 }, image)]
    (.pixels _ _ _ _ _ hu (.image _ _ _ _ himg (.done _))) s v hv
  refine ⟨h1, ?_⟩
  cases ho : observed env (imageTest readers [prog, b!"--numberOfPixelTolerance", value, image]) s with
  | nil => rw [ho] at h2; cases h2
  | cons o os =>
    rw [ho] at h2
    have hnil : os = [] := by
      have := congrArg List.length h2
      simpa using this
    subst hnil
    refine ⟨o, rfl, ?_⟩
    obtain ⟨call, tol, it, path, w⟩ := o
    have hpair : it = { pixels := 4294967295 } ∧ call = Call.fileITK image b!"ImageFile0" := by
      have e : b!"ImageFile" ++ natText 0 = b!"ImageFile0" := by decide +kernel
      simp only [List.map_cons, List.map_nil, List.zipIdx_cons, List.zipIdx_nil, List.cons.injEq, Prod.mk.injEq, and_true, e] at h2
      exact h2
    obtain ⟨rfl, rfl⟩ := hpair
    intro f valid test a1 a2 a3 a4 a5 a6 a7 a8
    rw [C50_run_passes_iff I hI env henv]
    refine ⟨f, valid, test, rfl, a1, a2, a3, a4, a5, a6, a7, ?_⟩
    refine le_trans (List.length_filter_le _ _) ?_
    exact le_trans a8 (by norm_num)

/-- **C97, negative.** A minus sign of the intensity tolerance is without effect. -/
theorem C97_intensity_sign (I : Toolkit) (hI : Sound I) (env : Env) (henv : env.image = some I.imageEnv) (path : List Str) (b : Meas)
    (fileName name : Str) (tol : ℚ) (it : ImgTol) (w : World) :
    Agree env b ⟨.fileITK fileName name, tol, { it with intensity := -it.intensity }, path, w⟩ ↔ Agree env b ⟨.fileITK fileName name, tol, it, path, w⟩ := by
  rw [C50_run_passes_iff I hI env henv, C50_run_passes_iff I hI env henv]
  have : ∀ valid test, Differs I.arith (-it.intensity) it.radius valid test = Differs I.arith it.intensity it.radius valid test := by
    intro valid test
    funext p
    simp only [Differs, Matches, neg_mul_neg]
  simp only [this]

/-! ## Examples -/

example : Numeral b!"  -12abc" (-12) := ⟨b!"  ", b!"-", b!"12", b!"abc", rfl, by simp [Blank], by simp, by simp [Digit], by simp [Digit], Or.inl ⟨rfl, by decide⟩⟩
example : ∀ v, ¬ Numeral b!"abc" v := (readInt_none _).mp (by decide)
example : ∀ v, ¬ Numeral b!"" v := (readInt_none _).mp (by decide)
example : getInteger b!"12abc" = 12 ∧ getInteger b!"99999999999" = 2147483647 ∧ getInteger b!"twelve" = 0 := by decide
example : getBoolean b!"true" = false ∧ getBoolean b!"7" = true ∧ getBoolean b!"0.5" = false := by decide
example : strtolInt b!"x" = 0 ∧ strtolInt b!"4294967296" = 0 ∧ strtolInt b!"-1" = -1 ∧ strtolInt b!"9223372036854775808" = -1 := by decide
example : Spec.Real b!"0x10" 0 := (convert_iff _ _).mp (by decide +kernel)
example : Spec.Real b!" -1.5e2,3" (-150) := (convert_iff _ _).mp (by decide +kernel)
example : Spec.Real b!".5" (1 / 2) := (convert_iff _ _).mp (by decide +kernel)
example : ∀ q, ¬ Spec.Real b!"1e" q := (convert_none _).mp (by decide +kernel)
example : ∀ q, ¬ Spec.Real b!"inf" q := (convert_none _).mp (by decide +kernel)
example : readers.unsigned b!"-1" = some 4294967295 ∧ readers.unsigned b!"3.7" = some 3 ∧ readers.unsigned b!"4294967296" = none ∧ readers.unsigned b!"x" = none := by
  decide +kernel
example : readers.real b!"2.5" = some (5 / 2) ∧ readers.real b!"1,5" = some 1 ∧ readers.real b!"nan" = none := by decide +kernel
/-- Exactly at the limit the number is refused. -/
example : (∃ q, Spec.Real b!"1e309" q ∧ (2 ^ 53 - 1 / 2) * 2 ^ (971 : Int) ≤ |q|) ∧ readers.real b!"1e309" = none := by
  refine ⟨⟨10 ^ (309 : Int), (convert_iff _ _).mp (by decide +kernel), by decide +kernel⟩, by decide +kernel⟩
example : Numeral (cstr b!"-1") (-1) := (readInt_iff _ _).mp (by decide)

end Verif.Numbers
