import Verif.Itk.Ieee
import Verif.Itk.AnyPixelProps
import Verif.Decimal.EndToEnd
import Verif.Numbers.RealLemmas

/-!
# Property C106: images of IEEE doubles
-/

set_option linter.unusedSimpArgs false

namespace Verif.Itk.Any
open Verif.Itk.Spec (Inside Near count)
open Verif.Decimal.Spec (IsDouble)
open Verif.Numbers.Spec (RoundedTo)
open Verif.Decimal
open _root_.Verif.Itk.Any.Spec

theorem double_round_mono {a b : ℚ} (h : a ≤ b) : double.round a ≤ double.round b := (double.rounding (by decide) (by decide +kernel)).mono _ _ h

theorem double_nearest_mono {a b : ℚ} (h : a ≤ b) : double.nearest a ≤ double.nearest b := double.nearest_mono (by decide) h

theorem value_ofRat (q : ℚ) : value (decide (q < 0)) |q| = q := by
  rw [value]
  by_cases h : q < 0
  · simp [h, abs_of_neg h]
  · simp [h, abs_of_nonneg (not_lt.mp h)]

theorem fpSub_ofRat (a b : ℚ) : fpSub (.ofRat a) (.ofRat b) = rounded (a - b) := by
  simp only [Fp.ofRat, fpSub, value_ofRat]

/-- The squared magnitude of a rounded difference. -/
theorem fpSquare_rounded (q : ℚ) : (double.nearest |q| ≤ double.max ∧ fpSquare (rounded q) = some (double.round (double.nearest |q| * double.nearest |q|))) ∨
    (double.max < double.nearest |q| ∧ fpSquare (rounded q) = some ⊤) := by
  rw [rounded]
  by_cases h : double.nearest |q| ≤ double.max
  · left
    rw [Format.round, if_pos h]
    exact ⟨h, rfl⟩
  · right
    rw [Format.round, if_neg h]
    exact ⟨not_le.mp h, rfl⟩

/-- An image of finite numbers. -/
def finite (r : Region) (v : Index → ℚ) : Image Fp := ⟨r, fun p => .ofRat (v p)⟩

theorem distance2_finite (root) (r r' : Region) (v w : Index → ℚ) (p q : Index) :
    distance2 (ieee root) (finite r v) (finite r' w) p q = fpSquare (rounded (v p - w q)) := by
  simp only [distance2, ieee, finite, fpSub_ofRat]

theorem nearest_double {τ : ℚ} (h0 : 0 ≤ τ) (h : IsDouble τ) : double.nearest τ = τ ∧ τ ≤ double.max := by
  obtain ⟨m, e, hm, he, he', hq⟩ := h
  rw [abs_of_nonneg h0] at hq
  refine ⟨?_, ?_⟩
  · rw [hq]; exact double.nearest_of_representable m e hm he
  · have := double.representable_le_max (q := τ) ⟨m, e, hm, he, he', by rw [abs_of_nonneg h0, hq]⟩
    rwa [abs_of_nonneg h0] at this

/-- Is a computed distance within a finite threshold? -/
theorem within_finite (q τ : ℚ) : Within (magnitudeSquare (some (τ : WithTop ℚ))) (fpSquare (rounded q)) ↔
    double.round (τ * τ) = ⊤ ∨ (double.nearest |q| ≤ double.max ∧ double.round (double.nearest |q| * double.nearest |q|) ≤ double.round (τ * τ)) := by
  have hsq : magnitudeSquare (some (τ : WithTop ℚ)) = some (double.round (τ * τ)) := rfl
  rw [hsq]
  rcases fpSquare_rounded q with ⟨h, e⟩ | ⟨h, e⟩
  · rw [e]
    constructor
    · rintro ⟨b, y, hb, hy, hle⟩
      cases hb; cases hy
      exact Or.inr ⟨h, hle⟩
    · rintro (ht | ⟨-, hle⟩)
      · exact ⟨_, _, rfl, rfl, by rw [ht]; exact le_top⟩
      · exact ⟨_, _, rfl, rfl, hle⟩
  · rw [e]
    constructor
    · rintro ⟨b, y, hb, hy, hle⟩
      cases hb; cases hy
      exact Or.inl (top_le_iff.mp hle)
    · rintro (ht | ⟨h', -⟩)
      · exact ⟨_, _, rfl, rfl, by rw [ht]⟩
      · exact absurd h' (not_le.mpr h)

/-- If no distance is within the threshold the pixel differs: finite numbers always have a distance. -/
theorem differs_finite (root) (r r' : Region) (v w : Index → ℚ) (τ : ℚ) (radius : Nat) (p : Index) (hp : Inside r' p) :
    Differs (ieee root) { threshold := some (τ : WithTop ℚ), radius := radius } (finite r v) (finite r' w) p ↔
      ∀ q, Inside r' q → Near radius p q → ¬ Within (magnitudeSquare (some (τ : WithTop ℚ))) (fpSquare (rounded (v p - w q))) := by
  simp only [Differs, distance2_finite]
  constructor
  · rintro ⟨-, -, h⟩ q hq hn
    exact h q hq hn
  · intro h
    refine ⟨fun h => (by cases h), ?_, fun q hq hn => h q hq hn⟩
    have h := h p hp (near_self _ _)
    obtain ⟨y, hy⟩ : ∃ y, fpSquare (rounded (v p - w p)) = some y := by
      rcases fpSquare_rounded (v p - w p) with ⟨-, e⟩ | ⟨-, e⟩ <;> exact ⟨_, e⟩
    refine ⟨_, y, rfl, hy, ?_⟩
    by_contra hc
    exact h ⟨_, y, rfl, hy, not_lt.mp hc⟩

/-- **C106.** A pixel is not counted if some value within the radius differs from it by at most the tolerance, a `double`. -/
theorem C106_tolerated (root) (r r' : Region) (v w : Index → ℚ) (τ : ℚ) (h0 : 0 ≤ τ) (hτ : IsDouble τ) (radius : Nat) (p q : Index) (hp : Inside r' p)
    (hq : Inside r' q) (hn : Near radius p q) (hle : |v p - w q| ≤ τ) :
    ¬ Differs (ieee root) { threshold := some (τ : WithTop ℚ), radius := radius } (finite r v) (finite r' w) p := by
  rw [differs_finite root r r' v w τ radius p hp]
  intro h
  refine h q hq hn ((within_finite _ _).mpr (Or.inr ?_))
  obtain ⟨e, hm⟩ := nearest_double h0 hτ
  have h1 : double.nearest |v p - w q| ≤ τ := by
    rw [← e]; exact double_nearest_mono hle
  exact ⟨le_trans h1 hm, double_round_mono (mul_le_mul h1 h1 (double.nearest_nonneg _) h0)⟩

/-- The unit of the last digit of a `double` that is not subnormal. -/
theorem ulp_normal {q : ℚ} (h : 2 ^ (-1022 : Int) ≤ q) : double.ulpExp q = Int.log 2 q - 52 := by
  have hq : 0 < q := lt_of_lt_of_le (two_pos _) h
  have hl : (-1022 : Int) ≤ Int.log 2 q := by
    have h1 := (log2_spec q hq).2
    have := (zpow_lt_zpow_iff_right₀ (by norm_num : (1 : ℚ) < 2)).mp (lt_of_le_of_lt h h1)
    omega
  have e1 : (double.prec : Int) = 53 := rfl
  have e2 : double.emin = -1074 := rfl
  simp only [Format.ulpExp, e1, e2]
  omega

/-- A number that is not changed by rounding, as a multiple of a smaller unit. -/
theorem double_multiple {u : Int} {d : ℚ} (hpd : 0 < d) (hd : double.nearest d = d) (hu : u ≤ double.ulpExp d) : ∃ j : Int, d = j * 2 ^ u := by
  rw [double.nearest_pos hpd, two_multiple hu, ← mul_assoc] at hd
  generalize rne _ = i at hd
  exact ⟨i * 2 ^ (double.ulpExp d - u).toNat, by rw [Int.cast_mul]; exact hd.symm⟩

/-- The next larger `double` is larger by at least the unit of the last digit. -/
theorem next_double {τ d : ℚ} (h0 : 2 ^ (-1022 : Int) ≤ τ) (hτ : double.nearest τ = τ) (hd : double.nearest d = d) (h : τ < d) : τ + 2 ^ (Int.log 2 τ - 52) ≤ d := by
  have hp : 0 < τ := lt_of_lt_of_le (two_pos _) h0
  have hpd : 0 < d := hp.trans h
  have hu := double.ulpExp_mono hp h.le
  rw [ulp_normal h0] at hu
  obtain ⟨i, hi⟩ := double_multiple hp hτ (by rw [ulp_normal h0])
  obtain ⟨j, hj⟩ := double_multiple hpd hd hu
  have hpos := two_pos (Int.log 2 τ - 52)
  generalize (2 : ℚ) ^ (Int.log 2 τ - 52) = z at *
  have hij : (i : ℚ) < j := by
    have : i * z < j * z := by rw [← hi, ← hj]; exact h
    exact lt_of_mul_lt_mul_right this hpos.le
  have hij : ((i + 1 : Int) : ℚ) ≤ j := by exact_mod_cast hij
  rw [hi, hj]
  push_cast at hij
  nlinarith

/-- Rounding of numbers that are not subnormal. -/
theorem sharp {x : ℚ} (h : 2 ^ (-1022 : Int) ≤ x) : |double.nearest x - x| * (1 + 2 ^ (-53 : Int)) ≤ x * 2 ^ (-53 : Int) := by
  have hp : 0 < x := lt_of_lt_of_le (two_pos _) h
  have h1 := double.nearest_error hp
  have h2 := double.nearest_best_multiple hp (2 ^ (Int.log 2 x - double.ulpExp x).toNat)
  rw [← two_multiple (by rw [ulp_normal h]; omega : double.ulpExp x ≤ Int.log 2 x)] at h2
  obtain ⟨l, -⟩ := log2_spec x hp
  rw [abs_of_nonpos (sub_nonpos.mpr l)] at h2
  rw [ulp_normal h, show Int.log 2 x - 52 = (-53 : Int) + Int.log 2 x + 1 by ring, zpow_add₀ (by norm_num), zpow_add₀ (by norm_num), zpow_one] at h1
  have hu := two_pos (-53)
  have hz := two_pos (Int.log 2 x)
  generalize |double.nearest x - x| = a at *
  generalize (2 : ℚ) ^ Int.log 2 x = z at *
  generalize (2 : ℚ) ^ (-53 : Int) = u at *
  clear h
  by_cases hc : z * (1 + u) ≤ x
  · nlinarith
  · nlinarith

/-- The squares of different `double`s are rounded to different numbers, if the smaller square is not subnormal. -/
theorem square_lt {τ d : ℚ} (h0 : 2 ^ (-511 : Int) ≤ τ) (hτ : double.nearest τ = τ) (hd : double.nearest d = d) (h : τ < d) :
    double.nearest (τ * τ) < double.nearest (d * d) := by
  have hp : 0 < τ := lt_of_lt_of_le (two_pos _) h0
  have hn := next_double (le_trans (zpow_le_zpow_right₀ (by norm_num) (by norm_num)) h0) hτ hd h
  have hsq : (2 : ℚ) ^ (-1022 : Int) ≤ τ * τ := by
    calc (2 : ℚ) ^ (-1022 : Int) = 2 ^ (-511 : Int) * 2 ^ (-511 : Int) := by rw [← zpow_add₀ (by norm_num)]; norm_num
      _ ≤ _ := mul_le_mul h0 h0 (two_pos _).le hp.le
  have hsd : τ * τ ≤ d * d := mul_le_mul h.le h.le hp.le (hp.trans h).le
  have s1 := sharp hsq
  have s2 := sharp (hsq.trans hsd)
  have l := (log2_spec τ hp).2
  rw [show Int.log 2 τ - 52 = (-53 : Int) + (Int.log 2 τ + 1) by ring, zpow_add₀ (by norm_num)] at hn
  have hu := two_pos (-53)
  have a1 := le_abs_self (double.nearest (τ * τ) - τ * τ)
  have a2 := neg_abs_le (double.nearest (d * d) - d * d)
  generalize |double.nearest (τ * τ) - τ * τ| = r at *
  generalize |double.nearest (d * d) - d * d| = r' at *
  generalize double.nearest (τ * τ) = N at *
  generalize double.nearest (d * d) = N' at *
  generalize (2 : ℚ) ^ (Int.log 2 τ + 1) = z at *
  generalize (2 : ℚ) ^ (-53 : Int) = u at *
  clear h0 hsq
  have hg : τ * (1 + u) < d := by nlinarith
  have hdd : τ * τ * (1 + 2 * u) < d * d := by
    have b0 : 0 ≤ τ * (1 + u) := by positivity
    have b1 := mul_lt_mul'' hg hg b0 b0
    have b2 : 0 ≤ u * u * (τ * τ) := by positivity
    nlinarith
  have c1 : N * (1 + u) ≤ τ * τ * (1 + 2 * u) := by nlinarith
  have c2 : d * d ≤ N' * (1 + u) := by nlinarith
  have : N * (1 + u) < N' * (1 + u) := by linarith
  exact lt_of_mul_lt_mul_right this (by linarith)

/-- The square of a `double` below 2^512 does not overflow. -/
theorem no_overflow {τ : ℚ} (h0 : 0 ≤ τ) (hτ : double.nearest τ = τ) (h1 : τ < 2 ^ (512 : Int)) : double.nearest (τ * τ) ≤ double.max := by
  have hle : τ ≤ (2 ^ 53 - 1) * 2 ^ (459 : Int) := by
    by_contra hc
    rw [not_le] at hc
    have hx : double.nearest ((2 ^ 53 - 1) * 2 ^ (459 : Int)) = (2 ^ 53 - 1) * 2 ^ (459 : Int) := by
      have := double.nearest_of_representable (2 ^ 53 - 1) 459 (by decide) (by decide)
      have e : ((2 ^ 53 - 1 : Nat) : ℚ) = 2 ^ 53 - 1 := by norm_num
      rwa [e] at this
    have := next_double (by decide +kernel) hx hτ hc
    rw [show Int.log 2 (((2 : ℚ) ^ 53 - 1) * 2 ^ (459 : Int)) - 52 = 459 by decide +kernel] at this
    have e : ((2 : ℚ) ^ 53 - 1) * 2 ^ (459 : Int) + 2 ^ (459 : Int) = 2 ^ (512 : Int) := by
      rw [show (512 : Int) = 53 + 459 by norm_num, zpow_add₀ (by norm_num), show (2 : ℚ) ^ (53 : Int) = 2 ^ 53 by norm_num]; ring
    rw [e] at this
    exact absurd h1 (not_lt.mpr this)
  have h2 : τ * τ ≤ ((2 ^ 53 - 1) * 2 ^ (459 : Int)) * ((2 ^ 53 - 1) * 2 ^ (459 : Int)) := mul_le_mul hle hle h0 (mul_nonneg (by norm_num) (two_pos _).le)
  refine (double_nearest_mono h2).trans ?_
  decide +kernel
/-- Rounded numbers, as in the specification. -/
theorem nearest_eq {x d : ℚ} (hx : 0 ≤ x) (h : RoundedTo 53 (-1074) x d) : double.nearest x = d :=
  Numbers.roundedTo_unique (Numbers.Format.nearest_rounded double hx) h

/-- **C106.** For a tolerance from 2^-511 to below 2^512, a `double`: exactly the pixels are counted whose difference from every value within the radius, rounded to `double`, is larger
than the tolerance. -/
theorem C106_exact (root) (r r' : Region) (v w : Index → ℚ) (τ : ℚ) (hτ : IsDouble τ) (h0 : 2 ^ (-511 : Int) ≤ τ) (h1 : τ < 2 ^ (512 : Int)) (radius : Nat) (p : Index) (hp : Inside r' p)
    (d : Index → ℚ) (hd : ∀ q, RoundedTo 53 (-1074) |v p - w q| (d q)) :
    Differs (ieee root) { threshold := some (τ : WithTop ℚ), radius := radius } (finite r v) (finite r' w) p ↔ ∀ q, Inside r' q → Near radius p q → τ < d q := by
  have hpos : 0 < τ := lt_of_lt_of_le (two_pos _) h0
  obtain ⟨e, hm⟩ := nearest_double hpos.le hτ
  have hsmall := no_overflow hpos.le e h1
  rw [differs_finite root r r' v w τ radius p hp]
  refine forall_congr' fun q => forall_congr' fun _ => forall_congr' fun _ => ?_
  have hq := nearest_eq (abs_nonneg _) (hd q)
  rw [within_finite, hq]
  have hdd : double.nearest (d q) = d q := by
    obtain ⟨m, x, hm, hx, hn, -⟩ := double.nearest_form (by decide) (abs_nonneg (v p - w q))
    rw [← hq, hn]
    exact double.nearest_of_representable m x hm hx
  have hd0 : 0 ≤ d q := by rw [← hq]; exact double.nearest_nonneg _
  constructor
  · intro h
    by_contra hc
    rw [not_lt] at hc
    exact h (Or.inr ⟨hc.trans hm, double_round_mono (mul_le_mul hc hc hd0 hpos.le)⟩)
  · rintro hlt (h | ⟨-, h⟩)
    · rw [Format.round, if_pos hsmall] at h
      cases h
    · exact absurd (of_round_le_round hsmall h) (not_le.mpr (square_lt h0 e hdd hlt))

/-- A smaller tolerance finds more. -/
theorem differs_antitone (root) (r r' : Region) (v w : Index → ℚ) (τ τ' : ℚ) (h0 : 0 ≤ τ) (hle : τ ≤ τ') (radius : Nat) (p : Index) (hp : Inside r' p)
    (h : Differs (ieee root) { threshold := some (τ' : WithTop ℚ), radius := radius } (finite r v) (finite r' w) p) :
    Differs (ieee root) { threshold := some (τ : WithTop ℚ), radius := radius } (finite r v) (finite r' w) p := by
  rw [differs_finite root r r' v w _ radius p hp] at h ⊢
  intro q hq hn hw
  refine h q hq hn ?_
  have hr := double_round_mono (mul_le_mul hle hle h0 (h0.trans hle))
  rw [within_finite] at hw ⊢
  rcases hw with hw | ⟨h1, h2⟩
  · rw [hw] at hr; exact Or.inl (top_le_iff.mp hr)
  · exact Or.inr ⟨h1, h2.trans hr⟩

/-- A difference larger than a `double` by one part in 2^52 is larger after rounding. -/
theorem margin {τ a : ℚ} (hτ : double.nearest τ = τ) (h0 : 2 ^ (-511 : Int) ≤ τ) (hfar : (1 + 2 ^ (-52 : Int)) * τ ≤ a) : τ < double.nearest a := by
  have hp : 0 < τ := lt_of_lt_of_le (two_pos _) h0
  have hn : (2 : ℚ) ^ (-1022 : Int) ≤ τ := le_trans (zpow_le_zpow_right₀ (by norm_num) (by norm_num)) h0
  have hpos := two_pos (Int.log 2 τ - 52)
  obtain ⟨l, -⟩ := log2_spec τ hp
  have ha : τ + 2 ^ (Int.log 2 τ - 52) ≤ a := by
    have e : (2 : ℚ) ^ (Int.log 2 τ - 52) = 2 ^ (-52 : Int) * 2 ^ Int.log 2 τ := by rw [← zpow_add₀ (by norm_num)]; congr 1; ring
    have := mul_le_mul_of_nonneg_left l (two_pos (-52)).le
    rw [e]; linarith
  have hpa : 0 < a := by linarith
  have hu : Int.log 2 τ - 52 ≤ double.ulpExp a := by
    rw [← ulp_normal hn]; exact double.ulpExp_mono hp (by linarith)
  have hna : (2 : ℚ) ^ (-1022 : Int) ≤ a := by linarith
  rcases hu.eq_or_lt with hu | hu
  · obtain ⟨i, hi⟩ := double_multiple hp hτ (by rw [ulp_normal hn])
    refine lt_of_lt_of_le (lt_add_of_pos_right τ hpos) ?_
    have e : τ + 2 ^ (Int.log 2 τ - 52) = ((i + 1 : Int) : ℚ) * 2 ^ double.ulpExp a := by
      rw [← hu]; push_cast; linarith
    rw [e] at ha ⊢
    exact double.le_nearest_multiple hpa _ ha
  · rw [ulp_normal hna] at hu
    have h1 := double.two_le_nearest hpa (Int.log 2 a) (by rw [ulp_normal hna]; omega) (log2_spec a hpa).1
    refine lt_of_lt_of_le (lt_of_lt_of_le (log2_spec τ hp).2 ?_) h1
    exact zpow_le_zpow_right₀ (by norm_num) (by omega)

/-- **C106.** A pixel is counted if all values within the radius differ from it by more than the tolerance, with a margin of one part in 2^52, for tolerances from
2^-511 to below 2^512; for smaller ones if they differ by more than 2^-511, with that margin. -/
theorem C106_found (root) (r r' : Region) (v w : Index → ℚ) (τ : ℚ) (hτ : IsDouble τ) (h0 : 0 ≤ τ) (h1 : τ < 2 ^ (512 : Int)) (radius : Nat) (p : Index) (hp : Inside r' p)
    (hfar : ∀ q, Inside r' q → Near radius p q → (1 + 2 ^ (-52 : Int)) * max τ (2 ^ (-511 : Int)) ≤ |v p - w q|) :
    Differs (ieee root) { threshold := some (τ : WithTop ℚ), radius := radius } (finite r v) (finite r' w) p := by
  have hd : ∀ q, RoundedTo 53 (-1074) |v p - w q| (double.nearest |v p - w q|) := fun q => Numbers.Format.nearest_rounded double (abs_nonneg _)
  rcases le_total (2 ^ (-511 : Int)) τ with h | h
  · rw [max_eq_left h] at hfar
    exact (C106_exact root r r' v w τ hτ h h1 radius p hp _ hd).mpr fun q hq hn => margin (nearest_double h0 hτ).1 h (hfar q hq hn)
  · rw [max_eq_right h] at hfar
    have hτ' : IsDouble (2 ^ (-511 : Int)) := ⟨1, -511, by norm_num, by norm_num, by norm_num, by rw [abs_of_pos (two_pos _)]; simp⟩
    exact differs_antitone root r r' v w τ _ h0 h radius p hp
      ((C106_exact root r r' v w _ hτ' le_rfl (zpow_lt_zpow_right₀ (by norm_num) (by norm_num)) radius p hp _ hd).mpr
        fun q hq hn => margin (nearest_double (two_pos _).le hτ').1 le_rfl (hfar q hq hn))

/-- A difference of multiples of the same power of two is a `double`. -/
theorem difference_exact {s : Int} (hs : -1074 ≤ s) {a b : ℚ} (ha : ∃ k : Int, |k| ≤ 2 ^ 52 ∧ a = k * 2 ^ s) (hb : ∃ k : Int, |k| < 2 ^ 52 ∧ b = k * 2 ^ s) :
    double.nearest |a - b| = |a - b| := by
  obtain ⟨k, hk, rfl⟩ := ha
  obtain ⟨j, hj, rfl⟩ := hb
  have e : |(k : ℚ) * 2 ^ s - j * 2 ^ s| = ((k - j).natAbs : ℚ) * 2 ^ s := by
    rw [← sub_mul, abs_mul, abs_of_pos (two_pos s), Nat.cast_natAbs]; push_cast; rfl
  rw [e]
  refine double.nearest_of_representable _ _ ?_ hs
  have e53 : double.prec = 53 := rfl
  rw [e53]
  rw [abs_le] at hk
  rw [abs_lt] at hj
  omega

/-- **C106.** Images of whole numbers below 2^52, or of multiples of another power of two below 2^52 times it, and a tolerance from 2^-511 to below 2^512: exactly the pixels are counted that
differ from every value within the radius by more than the tolerance. -/
theorem C106_within (root) (T : Threads Fp) (r : Region) (hT : Covers T r) (s : Int) (hs : -1074 ≤ s) (v w : Index → ℚ) (hv : ∀ p, ∃ k : Int, |k| < 2 ^ 52 ∧ v p = k * 2 ^ s)
    (hw : ∀ p, ∃ k : Int, |k| < 2 ^ 52 ∧ w p = k * 2 ^ s) (τ : ℚ) (hτ : IsDouble τ) (h0 : 2 ^ (-511 : Int) ≤ τ) (h1 : τ < 2 ^ (512 : Int)) (pixels radius : Nat) :
    compareImage (ieee root) T (finite r w) (finite r v) (some (τ : WithTop ℚ)) pixels radius (Region.default r.length) =
      .ok (count r (fun p => ∀ q, Inside r q → Near radius p q → τ < |v p - w q|) - pixels) := by
  have h := C104_compare (ieee root) T (finite r v) (finite r w) (some (τ : WithTop ℚ)) pixels radius rfl hT (fun d h => by cases h)
  refine h.trans ?_
  have hc : count r (Differs (ieee root) { threshold := some (τ : WithTop ℚ), radius := radius } (finite r v) (finite r w)) =
      count r (fun p => ∀ q, Inside r q → Near radius p q → τ < |v p - w q|) := by
    rw [count, count]
    congr 1
    apply List.filter_congr
    intro p hp
    simp only [decide_eq_decide]
    refine C106_exact root r r v w τ hτ h0 h1 radius p ((mem_pixels _ _).mp hp) _ fun q => ?_
    obtain ⟨k, hk, e⟩ := hv p
    have := Numbers.Format.nearest_rounded double (abs_nonneg (v p - w q))
    rwa [difference_exact hs ⟨k, hk.le, e⟩ (hw q)] at this
  rw [← hc]
  rfl

/-! ## Zero tolerance -/

theorem round_zero : double.round (0 * 0) = 0 := by decide +kernel

theorem within_zero (q : ℚ) : Within (magnitudeSquare (some ((0 : ℚ) : WithTop ℚ))) (fpSquare (rounded q)) ↔ double.nearest (double.nearest |q| * double.nearest |q|) = 0 := by
  have hmax : 0 ≤ double.max := by decide +kernel
  rw [within_finite, round_zero]
  constructor
  · rintro (h | ⟨-, h⟩)
    · cases h
    · rw [Format.round] at h
      split at h
      · have h : double.nearest (double.nearest |q| * double.nearest |q|) ≤ 0 := by exact_mod_cast h
        exact le_antisymm h (double.nearest_nonneg _)
      · exact absurd h (by simp)
  · intro h
    right
    constructor
    · by_contra hc
      have hc := not_le.mp hc
      have h1 : (1 : ℚ) ≤ double.max := by decide +kernel
      have h2 : (1 : ℚ) ≤ double.nearest |q| * double.nearest |q| := by nlinarith
      have h3 := double_nearest_mono h2
      rw [h, show double.nearest 1 = 1 by decide +kernel] at h3
      norm_num at h3
    · rw [Format.round, h, if_pos hmax]
      exact le_rfl

/-- A difference of at least 2^-537 is seen. -/
theorem seen {a : ℚ} (h : 2 ^ (-537 : Int) ≤ a) : double.nearest (double.nearest a * double.nearest a) ≠ 0 := by
  have h1 : (2 : ℚ) ^ (-537 : Int) ≤ double.nearest a := by
    have := double_nearest_mono h
    have e := double.nearest_of_representable 1 (-537) (by decide) (by decide)
    simp only [Nat.cast_one, one_mul] at e
    rwa [e] at this
  have h2 : (2 : ℚ) ^ (-1074 : Int) ≤ double.nearest a * double.nearest a := by
    calc (2 : ℚ) ^ (-1074 : Int) = 2 ^ (-537 : Int) * 2 ^ (-537 : Int) := by rw [← zpow_add₀ (by norm_num)]; norm_num
      _ ≤ _ := mul_le_mul h1 h1 (two_pos _).le (double.nearest_nonneg a)
  have h3 := double_nearest_mono h2
  have e := double.nearest_of_representable 1 (-1074) (by decide) (by decide)
  simp only [Nat.cast_one, one_mul] at e
  rw [e] at h3
  exact (lt_of_lt_of_le (two_pos _) h3).ne'

/-- A difference of at most 2^-538 is not. -/
theorem unseen {a : ℚ} (h : a ≤ 2 ^ (-538 : Int)) : double.nearest (double.nearest a * double.nearest a) = 0 := by
  have h1 : double.nearest a ≤ 2 ^ (-538 : Int) := by
    have := double_nearest_mono h
    have e := double.nearest_of_representable 1 (-538) (by decide) (by decide)
    simp only [Nat.cast_one, one_mul] at e
    rwa [e] at this
  have h2 : double.nearest a * double.nearest a ≤ 2 ^ (-1076 : Int) := by
    calc double.nearest a * double.nearest a ≤ 2 ^ (-538 : Int) * 2 ^ (-538 : Int) := mul_le_mul h1 h1 (double.nearest_nonneg a) (two_pos _).le
      _ = _ := by rw [← zpow_add₀ (by norm_num)]; norm_num
  have h3 := double_nearest_mono h2
  rw [show double.nearest (2 ^ (-1076 : Int)) = 0 by decide +kernel] at h3
  exact le_antisymm h3 (double.nearest_nonneg _)

/-- **C106.** With zero tolerance: a pixel is counted if all values within the radius differ from it by at least 2^-537, and it is not counted if one of them differs
by at most 2^-538, even if it differs. -/
theorem C106_zero (root) (r r' : Region) (v w : Index → ℚ) (radius : Nat) (p : Index) (hp : Inside r' p) :
    ((∀ q, Inside r' q → Near radius p q → 2 ^ (-537 : Int) ≤ |v p - w q|) →
      Differs (ieee root) { threshold := some ((0 : ℚ) : WithTop ℚ), radius := radius } (finite r v) (finite r' w) p) ∧
    ((∃ q, Inside r' q ∧ Near radius p q ∧ |v p - w q| ≤ 2 ^ (-538 : Int)) →
      ¬ Differs (ieee root) { threshold := some ((0 : ℚ) : WithTop ℚ), radius := radius } (finite r v) (finite r' w) p) := by
  rw [differs_finite root r r' v w 0 radius p hp]
  constructor
  · intro h q hq hn hw
    exact seen (h q hq hn) ((within_zero _).mp hw)
  · rintro ⟨q, hq, hn, hle⟩ h
    exact h q hq hn ((within_zero _).mpr (unseen hle))

/-- **C106.** Images of whole numbers or of `float`s, or other multiples of 2^-149: with zero tolerance exactly the pixels are counted whose value does not occur in the other
image within the radius; with zero radius, the pixels with different values. -/
theorem C106_zero_exact (root) (T : Threads Fp) (r : Region) (hT : Covers T r) (v w : Index → ℚ) (hv : ∀ p, ∃ k : Int, v p = k * 2 ^ (-149 : Int)) (hw : ∀ p, ∃ k : Int, w p = k * 2 ^ (-149 : Int))
    (pixels radius : Nat) :
    compareImage (ieee root) T (finite r w) (finite r v) (some ((0 : ℚ) : WithTop ℚ)) pixels radius (Region.default r.length) =
      .ok (count r (fun p => ∀ q, Inside r q → Near radius p q → v p ≠ w q) - pixels) := by
  have h := C104_compare (ieee root) T (finite r v) (finite r w) (some ((0 : ℚ) : WithTop ℚ)) pixels radius rfl hT (fun d h => by cases h)
  refine h.trans ?_
  have hc : count r (Differs (ieee root) { threshold := some ((0 : ℚ) : WithTop ℚ), radius := radius } (finite r v) (finite r w)) =
      count r (fun p => ∀ q, Inside r q → Near radius p q → v p ≠ w q) := by
    have key : ∀ p, Inside r p → (Differs (ieee root) { threshold := some ((0 : ℚ) : WithTop ℚ), radius := radius } (finite r v) (finite r w) p ↔
        ∀ q, Inside r q → Near radius p q → v p ≠ w q) := by
      intro p hp
      constructor
      · intro hd q hq hn he
        exact (C106_zero root r r v w radius p hp).2 ⟨q, hq, hn, by rw [he, sub_self, abs_zero]; exact (two_pos _).le⟩ hd
      · intro hne
        refine (C106_zero root r r v w radius p hp).1 fun q hq hn => ?_
        obtain ⟨k, hk⟩ := hv p
        obtain ⟨j, hj⟩ := hw q
        have hkj : k ≠ j := fun e => hne q hq hn (by rw [hk, hj, e])
        rw [hk, hj, ← sub_mul, abs_mul, abs_of_pos (two_pos (-149))]
        have h1 : (1 : ℚ) ≤ |(k : ℚ) - j| := by
          have : (1 : Int) ≤ |k - j| := Int.one_le_abs (sub_ne_zero.mpr hkj)
          exact_mod_cast this
        calc (2 : ℚ) ^ (-537 : Int) ≤ 2 ^ (-149 : Int) := zpow_le_zpow_right₀ (by norm_num) (by norm_num)
          _ = 1 * 2 ^ (-149 : Int) := (one_mul _).symm
          _ ≤ _ := mul_le_mul_of_nonneg_right h1 (two_pos _).le
    rw [count, count]
    congr 1
    apply List.filter_congr
    intro p hp
    simp only [decide_eq_decide]
    exact key p ((mem_pixels _ _).mp hp)
  rw [← hc]
  rfl

/-! ## Large tolerances, infinities -/

/-- **C106.** A tolerance of 2^512 or more accepts every image, also one with infinite values. -/
theorem C106_huge (root) (valid test : Image Fp) (τ : ℚ) (hτ : 2 ^ (512 : Int) ≤ τ) (radius : Nat) (p : Index) :
    ¬ Differs (ieee root) { threshold := some (τ : WithTop ℚ), radius := radius } valid test p := by
  have ht : double.round (τ * τ) = ⊤ := by
    have h1 : (2 : ℚ) ^ (1024 : Int) ≤ τ * τ := by
      calc (2 : ℚ) ^ (1024 : Int) = 2 ^ (512 : Int) * 2 ^ (512 : Int) := by rw [← zpow_add₀ (by norm_num)]; norm_num
        _ ≤ _ := mul_le_mul hτ hτ (two_pos _).le (le_trans (two_pos _).le hτ)
    have h2 := double_nearest_mono h1
    have h3 : double.max < double.nearest (2 ^ (1024 : Int)) := by decide +kernel
    rw [Format.round, if_neg (not_le.mpr (lt_of_lt_of_le h3 h2))]
  rintro ⟨-, ⟨b, y, hb, -, hlt⟩, -⟩
  have hb : some (double.round (τ * τ)) = some b := hb
  rw [ht] at hb
  cases hb
  exact not_top_lt hlt

/-- **C106.** An infinite value is counted if all values within the radius are finite (tolerances below 2^512), and so is a finite value if all are infinite; a value that is not a number
is not, nor is an infinite one where the other image has the same infinity. -/
theorem C106_special (root) (valid test : Image Fp) (τ : ℚ) (hd : IsDouble τ) (h0 : 0 ≤ τ) (hτ : τ < 2 ^ (512 : Int)) (radius : Nat) (p : Index) (hp : Inside test.region p) :
    (((∃ s, valid.pixel p = .infinite s) ∧ (∀ q, Inside test.region q → Near radius p q → ∃ s m, test.pixel q = .finite s m) ∨
      (∃ s m, valid.pixel p = .finite s m) ∧ ∀ q, Inside test.region q → Near radius p q → ∃ s, test.pixel q = .infinite s) →
      Differs (ieee root) { threshold := some (τ : WithTop ℚ), radius := radius } valid test p) ∧
    (((∃ s, valid.pixel p = .nan s) ∨ (∃ s, test.pixel p = .nan s) ∨ ∃ s, valid.pixel p = .infinite s ∧ test.pixel p = .infinite s) →
      ¬ Differs (ieee root) { threshold := some (τ : WithTop ℚ), radius := radius } valid test p) := by
  have hsq : (ieee root).square (some (τ : WithTop ℚ)) = some ((double.nearest (τ * τ) : ℚ) : WithTop ℚ) := by
    show some (double.round (τ * τ)) = _
    rw [Format.round, if_pos (no_overflow h0 (nearest_double h0 hd).1 hτ)]
  constructor
  · intro h
    have hd : ∀ q, Inside test.region q → Near radius p q → distance2 (ieee root) valid test p q = some ⊤ := by
      intro q hq hn
      rcases h with ⟨⟨s, hs⟩, h⟩ | ⟨⟨s, m, hs⟩, h⟩
      · obtain ⟨s', m', ht⟩ := h q hq hn
        simp [distance2, ieee, hs, ht, fpSub, fpSquare]
      · obtain ⟨s', ht⟩ := h q hq hn
        simp [distance2, ieee, hs, ht, fpSub, fpSquare]
    refine ⟨fun h => (by cases h), ⟨_, ⊤, hsq, hd p hp (near_self _ _), WithTop.coe_lt_top _⟩, ?_⟩
    rintro q hq hn ⟨b, y, hb, hy, hle⟩
    rw [hsq] at hb
    rw [hd q hq hn] at hy
    cases hb; cases hy
    exact absurd hle (not_le.mpr (WithTop.coe_lt_top _))
  · rintro h ⟨-, ⟨b, y, -, hy, -⟩, -⟩
    have : distance2 (ieee root) valid test p p = none := by
      rcases h with ⟨s, hs⟩ | ⟨s, hs⟩ | ⟨s, hs, hs'⟩
      · simp only [distance2, ieee, hs]; rfl
      · simp only [distance2, ieee, hs]
        cases valid.pixel p <;> rfl
      · simp [distance2, ieee, hs, hs', fpSub, fpSquare]
    rw [this] at hy
    cases hy

/-- Two images of one pixel, 0 and 10^-162 (rounded to a power of two, 2^-538): equal with zero tolerance; 1 and 0 are not; with a tolerance of 2^512 an infinite
value passes. -/
example : compareImage (ieee id) ⟨1, [(0, [0])], fun _ => .nan false⟩ (finite [(0, 1)] fun _ => 2 ^ (-538 : Int)) (finite [(0, 1)] fun _ => 0) (some ((0 : ℚ) : WithTop ℚ)) 0 0 (Region.default 1) = .ok 0 ∧
    compareImage (ieee id) ⟨1, [(0, [0])], fun _ => .nan false⟩ (finite [(0, 1)] fun _ => 1) (finite [(0, 1)] fun _ => 0) (some ((0 : ℚ) : WithTop ℚ)) 0 0 (Region.default 1) = .ok 1 ∧
    compareImage (ieee id) ⟨1, [(0, [0])], fun _ => .nan false⟩ ⟨[(0, 1)], fun _ => .infinite true⟩ (finite [(0, 1)] fun _ => 0) (some ((2 ^ (512 : Int) : ℚ) : WithTop ℚ)) 0 0 (Region.default 1) = .ok 0 := by
  refine ⟨by decide +kernel, by decide +kernel, by decide +kernel⟩

theorem one_double : IsDouble 1 := ⟨1, 0, by norm_num, by norm_num, by norm_num, by norm_num⟩

/-- With a tolerance of 1, a value of 1 is tolerated where 0 is expected (`C106_tolerated`), and 2 is found (`C106_found`). -/
example : ¬ Differs (ieee id) { threshold := some ((1 : ℚ) : WithTop ℚ), radius := 0 } (finite [(0, 1)] fun _ => 0) (finite [(0, 1)] fun _ => 1) [0] ∧
    Differs (ieee id) { threshold := some ((1 : ℚ) : WithTop ℚ), radius := 0 } (finite [(0, 1)] fun _ => 0) (finite [(0, 1)] fun _ => 2) [0] := by
  have hin : Inside [(0, 1)] [0] := ⟨by decide, by decide, trivial⟩
  constructor
  · exact C106_tolerated id _ _ _ _ 1 (by norm_num) one_double 0 [0] [0] hin hin (near_self _ _) (by norm_num)
  · exact C106_found id _ _ _ _ 1 one_double (by norm_num) (by decide +kernel) 0 [0] hin (fun q _ _ => by rw [max_eq_left (by decide +kernel)]; norm_num)

/-- The next `double` after the tolerance is counted (`C106_exact`): tolerance 1, difference 1 + 2^-52. -/
example : Differs (ieee id) { threshold := some ((1 : ℚ) : WithTop ℚ), radius := 0 } (finite [(0, 1)] fun _ => 1 + 2 ^ (-52 : Int)) (finite [(0, 1)] fun _ => 0) [0] := by
  have hin : Inside [(0, 1)] [0] := ⟨by decide, by decide, trivial⟩
  refine (C106_exact id _ _ _ _ 1 one_double (by decide +kernel) (by decide +kernel) 0 [0] hin (fun _ => 1 + 2 ^ (-52 : Int)) fun q => ?_).mpr fun q _ _ => by norm_num
  have := Numbers.Format.nearest_rounded double (abs_nonneg ((1 : ℚ) + 2 ^ (-52 : Int) - 0))
  rwa [show double.nearest |(1 : ℚ) + 2 ^ (-52 : Int) - 0| = 1 + 2 ^ (-52 : Int) by decide +kernel] at this

/-- Two images of two pixels, 10 and 20 against 12 and 20 (`C106_within`): one counted with tolerance 1, none with tolerance 2. -/
example : compareImage (ieee id) ⟨1, [(0, [0]), (0, [1])], fun _ => .nan false⟩ (finite [(0, 2)] fun p => if p = [0] then 12 else 20) (finite [(0, 2)] fun p => if p = [0] then 10 else 20) (some ((1 : ℚ) : WithTop ℚ)) 0 0 (Region.default 1) = .ok 1 ∧
    compareImage (ieee id) ⟨1, [(0, [0]), (0, [1])], fun _ => .nan false⟩ (finite [(0, 2)] fun p => if p = [0] then 12 else 20) (finite [(0, 2)] fun p => if p = [0] then 10 else 20) (some ((2 : ℚ) : WithTop ℚ)) 0 0 (Region.default 1) = .ok 0 := by
  refine ⟨by decide +kernel, by decide +kernel⟩

end Verif.Itk.Any
