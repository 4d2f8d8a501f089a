import Verif.Itk.StatsSpec
import Verif.Itk.IeeeProps

/-!
# The rounded square root, rounded sums
-/

set_option exponentiation.threshold 1100

namespace Verif.Itk.Any
open Verif.Itk.Spec (Inside Near count)
open Verif.Decimal.Spec (IsDouble)
open Verif.Numbers.Spec (RoundedTo)
open Verif.Decimal
open _root_.Verif.Itk.Any.Spec

/-! ## The square root -/

theorem four_pos (e : Int) : (0 : ℚ) < 4 ^ e := zpow_pos (by norm_num) e

theorem four_eq (e : Int) : (4 : ℚ) ^ e = 2 ^ e * 2 ^ e := by rw [← mul_zpow]; norm_num

theorem four_two (e : Int) : (4 : ℚ) ^ e = 2 ^ (2 * e) := by rw [four_eq, ← zpow_add₀ (by norm_num)]; congr 1; ring

/-- The conditions on the digits of a root. -/
def DigitsOfRoot (y : ℚ) (k : Int) : Prop := 0 < k ∧ (2 * k - 1) ^ 2 ≤ 4 * y ∧ 4 * y ≤ (2 * k + 1) ^ 2 ∧ (((2 * k - 1 : ℚ)) ^ 2 = 4 * y ∨ 4 * y = (2 * k + 1) ^ 2 → k % 2 = 0)

theorem digits_unique {y : ℚ} {k k' : Int} (h : DigitsOfRoot y k) (h' : DigitsOfRoot y k') : k = k' := by
  have key : ∀ k k' : Int, DigitsOfRoot y k → DigitsOfRoot y k' → ¬ k < k' := by
    rintro k k' ⟨h0, h1, h2, h3⟩ ⟨h0', h1', h2', h3'⟩ hlt
    have e1 : (2 * k + 1 : Int) ≤ 2 * k' - 1 := by omega
    have e2 : ((2 * k + 1 : Int)) ^ 2 ≤ (2 * k' - 1) ^ 2 := by nlinarith
    have e3 : ((2 * k + 1 : ℚ)) ^ 2 ≤ (2 * k' - 1) ^ 2 := by exact_mod_cast e2
    have a1 := h3 (Or.inr (le_antisymm h2 (e3.trans h1')))
    have a2 := h3' (Or.inl (le_antisymm h1' (h2.trans e3)))
    have e4 : ((2 * k' - 1 : ℚ)) ^ 2 ≤ (2 * k + 1) ^ 2 := h1'.trans h2
    have e5 : (2 * k' - 1 : Int) ^ 2 ≤ (2 * k + 1) ^ 2 := by exact_mod_cast e4
    have e6 : (2 * k' - 1 : Int) ≤ 2 * k + 1 := by nlinarith
    omega
  have := key k k' h h'
  have := key k' k h' h
  omega

theorem rootDigits_spec {y : ℚ} (hy : 1 ≤ y) : DigitsOfRoot y (rootDigits y) := by
  have hf : 1 ≤ y.floor := Rat.le_floor_iff.mpr (by exact_mod_cast hy)
  have hf1 : (y.floor : ℚ) ≤ y := Rat.le_floor_iff.mp le_rfl
  have hf2 : y < (y.floor : ℚ) + 1 := by exact_mod_cast Rat.lt_floor_add_one y
  obtain ⟨n, hn⟩ := Int.eq_ofNat_of_zero_le (le_trans zero_le_one hf)
  rw [rootDigits, hn]
  simp only [Int.toNat_natCast]
  have s1 := Nat.sqrt_le n
  have s2 := Nat.lt_succ_sqrt n
  have s3 : 0 < Nat.sqrt n := Nat.sqrt_pos.mpr (by omega)
  generalize Nat.sqrt n = k at *
  rw [hn] at hf1 hf2
  have b1 : (k : ℚ) * k ≤ y := le_trans (by exact_mod_cast s1) hf1
  have b2 : y < ((k : ℚ) + 1) * (k + 1) := by
    have : n + 1 ≤ (k + 1) * (k + 1) := s2
    have : ((n : ℚ) + 1) ≤ (k + 1) * (k + 1) := by exact_mod_cast this
    exact lt_of_lt_of_le (by exact_mod_cast hf2) this
  have s3' : (1 : ℚ) ≤ k := by exact_mod_cast s3
  clear s1 s2 hf1 hf2
  push_cast
  split
  · next h =>
    refine ⟨by omega, by push_cast; nlinarith, by push_cast; nlinarith, ?_⟩
    rintro (h' | h') <;> exfalso <;> push_cast at h' <;> nlinarith
  · next h =>
    split
    · next h' =>
      obtain ⟨h1, h2⟩ := h'
      refine ⟨by omega, by push_cast; nlinarith, by push_cast; nlinarith, fun _ => by omega⟩
    · next h' =>
      refine ⟨by omega, by push_cast; nlinarith, by push_cast; nlinarith, ?_⟩
      rintro (h1 | h1)
      · exfalso; push_cast at h1; nlinarith
      · by_contra hc
        push_cast at h1
        exact h' ⟨by rw [h1]; ring, by omega⟩

theorem digits_iff {x : ℚ} {k u : Int} : DigitsOfRoot (x / 4 ^ u) k ↔ 0 < k ∧ ((k : ℚ) * 2 ^ u - 2 ^ u / 2) ^ 2 ≤ x ∧ x ≤ ((k : ℚ) * 2 ^ u + 2 ^ u / 2) ^ 2 ∧
    (((k : ℚ) * 2 ^ u - 2 ^ u / 2) ^ 2 = x ∨ x = ((k : ℚ) * 2 ^ u + 2 ^ u / 2) ^ 2 → k % 2 = 0) := by
  have hz := two_pos u
  rw [DigitsOfRoot, four_eq]
  generalize (2 : ℚ) ^ u = z at *
  obtain ⟨y, rfl⟩ : ∃ y, x = y * (z * z) := ⟨x / (z * z), by field_simp⟩
  have e0 : y * (z * z) / (z * z) = y := by field_simp
  rw [e0]
  have hzz : 0 < z * z / 4 := by positivity
  have e1 : ((k : ℚ) * z - z / 2) ^ 2 = (2 * k - 1) ^ 2 * (z * z / 4) := by ring
  have e2 : ((k : ℚ) * z + z / 2) ^ 2 = (2 * k + 1) ^ 2 * (z * z / 4) := by ring
  have e3 : y * (z * z) = 4 * y * (z * z / 4) := by ring
  rw [e1, e2, e3, mul_le_mul_iff_left₀ hzz, mul_le_mul_iff_left₀ hzz, mul_left_inj' hzz.ne', mul_left_inj' hzz.ne']

theorem rootExp_spec {x : ℚ} (hx : 0 < x) : 4 ^ (rootExp x + 52) ≤ x ∧ x < 4 ^ (rootExp x + 53) := by
  obtain ⟨l1, l2⟩ := log2_spec x hx
  rw [four_two, four_two, rootExp]
  exact ⟨le_trans (zpow_le_zpow_right₀ (by norm_num) (by omega)) l1, lt_of_lt_of_le l2 (zpow_le_zpow_right₀ (by norm_num) (by omega))⟩

theorem exp_unique {x : ℚ} {u u' : Int} (h1 : 4 ^ (u + 52) ≤ x) (h2 : x < 4 ^ (u + 53)) (h1' : 4 ^ (u' + 52) ≤ x) (h2' : x < 4 ^ (u' + 53)) : u = u' := by
  have a := (zpow_lt_zpow_iff_right₀ (by norm_num : (1 : ℚ) < 4)).mp (lt_of_le_of_lt h1 h2')
  have b := (zpow_lt_zpow_iff_right₀ (by norm_num : (1 : ℚ) < 4)).mp (lt_of_le_of_lt h1' h2)
  omega

theorem rootOf_rounded {x : ℚ} (hx : 0 < x) : RoundedRoot x (rootOf x) := by
  obtain ⟨h1, h2⟩ := rootExp_spec hx
  have hy : 1 ≤ x / 4 ^ rootExp x := by
    rw [le_div_iff₀ (four_pos _), one_mul]
    exact le_trans (zpow_le_zpow_right₀ (by norm_num) (by omega)) h1
  obtain ⟨a, b, c, d⟩ := digits_iff.mp (rootDigits_spec hy)
  rw [rootOf, if_neg (not_le.mpr hx)]
  exact ⟨_, _, rfl, a, h1, h2, b, c, d⟩

theorem rootOf_eq {x y : ℚ} (h : RoundedRoot x y) : rootOf x = y := by
  have hx : 0 < x := by
    obtain ⟨k, u, -, -, h1, -⟩ := h
    exact lt_of_lt_of_le (four_pos _) h1
  obtain ⟨k, u, rfl, a, b1, b2, c, d, e⟩ := h
  obtain ⟨k', u', e', a', b1', b2', c', d', f'⟩ := rootOf_rounded hx
  obtain rfl := exp_unique b1 b2 b1' b2'
  rw [e'] at c' d' f' ⊢
  rw [digits_unique (digits_iff.mpr ⟨a, c, d, e⟩) (digits_iff.mpr ⟨a', c', d', f'⟩)]

/-- The root of a `double` is a `double`, positive. -/
theorem root_double {x y : ℚ} (hx : 2 ^ (-1074 : Int) ≤ x) (h : RoundedRoot x y) : 0 < y ∧ double.nearest y = y := by
  obtain ⟨k, u, rfl, a, b1, b2, c, d, e⟩ := h
  have hk : (0 : ℚ) < k := by exact_mod_cast a
  refine ⟨mul_pos hk (two_pos _), ?_⟩
  have hu : -1074 ≤ u := by
    have := lt_of_le_of_lt hx b2
    rw [four_two] at this
    have := (zpow_lt_zpow_iff_right₀ (by norm_num : (1 : ℚ) < 2)).mp this
    omega
  have hk2 : k ≤ 2 ^ 53 := by
    have h1 := lt_of_le_of_lt c b2
    rw [show u + 53 = 53 + u by ring, zpow_add₀ (by norm_num), four_eq u] at h1
    have hz := two_pos u
    generalize (2 : ℚ) ^ u = z at *
    have h2 : ((2 * k - 1 : ℚ)) ^ 2 * (z * z / 4) < ((2 : ℚ) ^ 54) ^ 2 * (z * z / 4) := by
      have e1 : ((k : ℚ) * z - z / 2) ^ 2 = (2 * k - 1) ^ 2 * (z * z / 4) := by ring
      have e2 : (4 : ℚ) ^ (53 : Int) * (z * z) = ((2 : ℚ) ^ 54) ^ 2 * (z * z / 4) := by
        rw [show (4 : ℚ) ^ (53 : Int) = (2 ^ 54) ^ 2 / 4 by norm_num]; ring
      rw [e1, e2] at h1; exact h1
    have h3 := lt_of_mul_lt_mul_right h2 (by positivity)
    have h4 : (2 * k - 1 : ℚ) < 2 ^ 54 := lt_of_pow_lt_pow_left₀ 2 (by norm_num) h3
    have h5 : (2 * k - 1 : Int) < 2 ^ 54 := by exact_mod_cast h4
    omega
  obtain ⟨m, rfl⟩ := Int.eq_ofNat_of_zero_le a.le
  rcases hk2.lt_or_eq with hlt | heq
  · have e53 : double.prec = 53 := rfl
    have := double.nearest_of_representable m u (by rw [e53]; omega) hu
    push_cast at this ⊢; exact this
  · have := double.nearest_of_representable 1 (u + 53) (by decide) (by
      have : double.emin = -1074 := rfl
      omega)
    rw [heq]
    rw [zpow_add₀ (by norm_num)] at this
    have e : ((1 : Nat) : ℚ) * (2 ^ u * 2 ^ (53 : Int)) = ((2 ^ 53 : Int) : ℚ) * 2 ^ u := by norm_num; ring
    rwa [e] at this

/-- The root of the square of a `double` is that `double`, unless the square is subnormal or overflows. -/
theorem root_square {d : ℚ} (h0 : 2 ^ (-511 : Int) ≤ d) (hd : double.nearest d = d) : RoundedRoot (double.nearest (d * d)) d := by
  have hp : 0 < d := lt_of_lt_of_le (two_pos _) h0
  have hn : (2 : ℚ) ^ (-1022 : Int) ≤ d := le_trans (zpow_le_zpow_right₀ (by norm_num) (by norm_num)) h0
  have hsq : (2 : ℚ) ^ (-1022 : Int) ≤ d * d := by
    calc (2 : ℚ) ^ (-1022 : Int) = 2 ^ (-511 : Int) * 2 ^ (-511 : Int) := by rw [← zpow_add₀ (by norm_num)]; norm_num
      _ ≤ _ := mul_le_mul h0 h0 (two_pos _).le hp.le
  have hs := sharp hsq
  obtain ⟨k, hk⟩ := double_multiple hp hd (by rw [ulp_normal hn])
  obtain ⟨l1, l2⟩ := log2_spec d hp
  have hu := two_pos (-53)
  have hz := two_pos (Int.log 2 d - 52)
  have hk0 : 0 < k := by
    have : (0 : ℚ) < k := by
      by_contra hc
      rw [not_lt] at hc
      have := mul_nonpos_of_nonpos_of_nonneg hc hz.le
      linarith
    exact_mod_cast this
  have e1 : (2 : ℚ) ^ (Int.log 2 d + 1) * 2 ^ (-53 : Int) = 2 ^ (Int.log 2 d - 52) := by rw [← zpow_add₀ (by norm_num)]; congr 1; ring
  -- the error is smaller than the distance to the middle between two `double`s
  have hgap : |double.nearest (d * d) - d * d| < d * 2 ^ (Int.log 2 d - 52) - 2 ^ (Int.log 2 d - 52) * 2 ^ (Int.log 2 d - 52) / 4 := by
    have a1 : d * 2 ^ (-53 : Int) < 2 ^ (Int.log 2 d - 52) := by rw [← e1]; exact mul_lt_mul_of_pos_right l2 hu
    have e2 : (2 : ℚ) ^ (Int.log 2 d - 52) = 2 * 2 ^ (-53 : Int) * 2 ^ Int.log 2 d := by
      rw [show (2 : ℚ) * 2 ^ (-53 : Int) = 2 ^ (-52 : Int) by norm_num, ← zpow_add₀ (by norm_num)]; congr 1; ring
    rw [e2] at a1 ⊢
    generalize |double.nearest (d * d) - d * d| = r at hs ⊢
    have hu1 : (2 : ℚ) ^ (-53 : Int) ≤ 1 := by norm_num
    have hL := two_pos (Int.log 2 d)
    generalize (2 : ℚ) ^ (-53 : Int) = u at *
    generalize (2 : ℚ) ^ Int.log 2 d = L at *
    clear e1 e2 hsq h0 hn hk
    have c1 : d * d * u < d * (2 * u * L) := by nlinarith
    have c2 : u * u * L * L ≤ u * u * L * d := mul_le_mul_of_nonneg_left l1 (by positivity)
    have c3 : 0 ≤ u * u * L * d := by positivity
    have c4 : u * u * L * L * u ≤ u * u * L * d * 1 := mul_le_mul c2 hu1 hu.le c3
    have : r * (1 + u) < (d * (2 * u * L) - 2 * u * L * (2 * u * L) / 4) * (1 + u) := by nlinarith
    exact lt_of_mul_lt_mul_right this (by linarith)
  have hd2 : d + 2 ^ (Int.log 2 d - 52) ≤ 2 ^ (Int.log 2 d + 1) := by
    have e3 : (2 : ℚ) ^ (Int.log 2 d + 1) = ((2 ^ 53 : Int) : ℚ) * 2 ^ (Int.log 2 d - 52) := by
      rw [show Int.log 2 d + 1 = 53 + (Int.log 2 d - 52) by ring, zpow_add₀ (by norm_num)]; norm_num
    rw [e3] at l2 ⊢
    generalize (2 : ℚ) ^ (Int.log 2 d - 52) = z at *
    generalize ((2 : Int) ^ 53) = M at *
    have h1 : (k : ℚ) * z < (M : ℚ) * z := by rw [← hk]; exact l2
    have h2 : (k : ℚ) < (M : ℚ) := lt_of_mul_lt_mul_right h1 hz.le
    have h3 : ((k + 1 : Int) : ℚ) ≤ (M : ℚ) := by exact_mod_cast h2
    have h4 := mul_le_mul_of_nonneg_right h3 hz.le
    push_cast at h4
    linarith
  obtain ⟨g1, g2⟩ := abs_lt.mp hgap
  refine ⟨k, Int.log 2 d - 52, hk, hk0, ?_, ?_, ?_, ?_, ?_⟩
  · rw [four_two]
    refine double.two_le_nearest (mul_pos hp hp) _ ?_ ?_
    · rw [ulp_normal hsq]
      have := (log2_spec _ (mul_pos hp hp)).1
      have h3 : d * d < 2 ^ (2 * Int.log 2 d + 2) := by
        calc d * d < 2 ^ (Int.log 2 d + 1) * 2 ^ (Int.log 2 d + 1) := mul_lt_mul'' l2 l2 hp.le hp.le
          _ = _ := by rw [← zpow_add₀ (by norm_num)]; congr 1; ring
      have := (zpow_lt_zpow_iff_right₀ (by norm_num : (1 : ℚ) < 2)).mp (lt_of_le_of_lt this h3)
      omega
    · calc (2 : ℚ) ^ (2 * (Int.log 2 d - 52 + 52)) = 2 ^ Int.log 2 d * 2 ^ Int.log 2 d := by rw [← zpow_add₀ (by norm_num)]; congr 1; ring
        _ ≤ _ := mul_le_mul l1 l1 (two_pos _).le hp.le
  · rw [show Int.log 2 d - 52 + 53 = Int.log 2 d + 1 by ring, four_eq]
    generalize (2 : ℚ) ^ (Int.log 2 d + 1) = M at *
    generalize (2 : ℚ) ^ (Int.log 2 d - 52) = z at *
    have : (d + z) * (d + z) ≤ M * M := mul_le_mul hd2 hd2 (by linarith) (by linarith)
    nlinarith
  · generalize (2 : ℚ) ^ (Int.log 2 d - 52) = z at *
    nlinarith
  · generalize (2 : ℚ) ^ (Int.log 2 d - 52) = z at *
    nlinarith
  · generalize (2 : ℚ) ^ (Int.log 2 d - 52) = z at *
    rintro (h | h) <;> exfalso <;> nlinarith

/-! ## Rounded sums -/

/-- Up to 2^53 times a power of two is a `double`. -/
theorem whole_double {k : Nat} {s : Int} (hs : -1074 ≤ s) (hk : k ≤ 2 ^ 53) : double.nearest (k * 2 ^ s) = k * 2 ^ s := by
  have e53 : double.prec = 53 := rfl
  have emin : double.emin = -1074 := rfl
  rcases hk.lt_or_eq with hlt | rfl
  · exact double.nearest_of_representable k s (by rw [e53]; omega) hs
  · have := double.nearest_of_representable 1 (s + 53) (by decide) (by rw [emin]; omega)
    have e : ((1 : Nat) : ℚ) * 2 ^ (s + 53) = ((2 ^ 53 : Nat) : ℚ) * 2 ^ s := by rw [zpow_add₀ (by norm_num)]; norm_num; ring
    rwa [e] at this

theorem multiple_min {a : ℚ} (h0 : 0 ≤ a) (h : double.nearest a = a) : ∃ k : Nat, a = k * 2 ^ (-1074 : Int) := by
  obtain ⟨m, e, -, he, hn, -⟩ := double.nearest_form (by decide) h0
  have emin : double.emin = -1074 := rfl
  rw [emin] at he
  refine ⟨m * 2 ^ (e + 1074).toNat, ?_⟩
  rw [← h, hn, two_multiple he]
  push_cast
  rw [show e - -1074 = e + 1074 by ring]
  ring

/-- The sum of two `double`s has a relative error of at most one part in 2^53. -/
theorem add_accuracy {a b : ℚ} (ha0 : 0 ≤ a) (hb0 : 0 ≤ b) (ha : double.nearest a = a) (hb : double.nearest b = b) :
    |double.nearest (a + b) - (a + b)| ≤ 2 ^ (-53 : Int) * (a + b) := by
  by_cases h : 2 ^ (-1022 : Int) ≤ a + b
  · have := sharp h
    have hu := two_pos (-53)
    have h0 := abs_nonneg (double.nearest (a + b) - (a + b))
    nlinarith
  · obtain ⟨k, hk⟩ := multiple_min ha0 ha
    obtain ⟨j, hj⟩ := multiple_min hb0 hb
    have e : a + b = ((k + j : Nat) : ℚ) * 2 ^ (-1074 : Int) := by rw [hk, hj]; push_cast; ring
    have hle : k + j ≤ 2 ^ 53 := by
      by_contra hc
      rw [not_le] at hc h
      rw [e] at h
      have e2 : (2 : ℚ) ^ (-1022 : Int) = ((2 ^ 52 : Nat) : ℚ) * 2 ^ (-1074 : Int) := by
        rw [show (-1022 : Int) = 52 + -1074 by norm_num, zpow_add₀ (by norm_num)]; norm_num
      rw [e2] at h
      have := lt_of_mul_lt_mul_right h (two_pos _).le
      have : k + j < 2 ^ 52 := by exact_mod_cast this
      omega
    rw [e, whole_double le_rfl hle, sub_self, abs_zero]
    exact mul_nonneg (two_pos _).le (mul_nonneg (Nat.cast_nonneg _) (two_pos _).le)

/-- `double`s added one after the other. -/
def addAll (a : Option (WithTop ℚ)) (l : List ℚ) : Option (WithTop ℚ) := l.foldl (fun (acc : Option (WithTop ℚ)) (x : ℚ) => magnitudeAdd acc (some (x : WithTop ℚ))) a

theorem magnitudeAdd_finite {a b : ℚ} (h : double.nearest (a + b) ≤ double.max) :
    magnitudeAdd (some (a : WithTop ℚ)) (some (b : WithTop ℚ)) = some ((double.nearest (a + b) : ℚ) : WithTop ℚ) := by
  show some (double.round (a + b)) = _
  rw [Format.round, if_pos h]

theorem addAll_accuracy : ∀ (l : List ℚ) (a : ℚ), 0 ≤ a → double.nearest a = a → (∀ x ∈ l, 0 ≤ x ∧ double.nearest x = x) →
    (1 + 2 ^ (-53 : Int)) ^ l.length * (a + l.sum) ≤ double.max →
    ∃ x : ℚ, addAll (some (a : WithTop ℚ)) l = some (x : WithTop ℚ) ∧ 0 ≤ x ∧ double.nearest x = x ∧
      (1 - 2 ^ (-53 : Int)) ^ l.length * (a + l.sum) ≤ x ∧ x ≤ (1 + 2 ^ (-53 : Int)) ^ l.length * (a + l.sum) := by
  intro l
  induction l with
  | nil => intro a h0 h _ _; exact ⟨a, rfl, h0, h, by simp, by simp⟩
  | cons b l ih =>
    intro a h0 h hall hfit
    obtain ⟨hb0, hb⟩ := hall b (by simp)
    have hl : ∀ x ∈ l, 0 ≤ x ∧ double.nearest x = x := fun x hx => hall x (List.mem_cons_of_mem _ hx)
    have hsum : 0 ≤ l.sum := List.sum_nonneg fun x hx => (hl x hx).1
    have hu := two_pos (-53)
    have hu1 : (2 : ℚ) ^ (-53 : Int) ≤ 1 := by norm_num
    obtain ⟨c1, c2⟩ := abs_le.mp (add_accuracy h0 hb0 h hb)
    have hp : (1 : ℚ) ≤ (1 + 2 ^ (-53 : Int)) ^ l.length := one_le_pow₀ (by linarith)
    have hpm : (0 : ℚ) ≤ (1 - 2 ^ (-53 : Int)) ^ l.length := pow_nonneg (by linarith) _
    have hn : double.nearest (double.nearest (a + b)) = double.nearest (a + b) := by
      obtain ⟨m, e, hm, he, hn, -⟩ := double.nearest_form (by decide) (add_nonneg h0 hb0)
      rw [hn]; exact double.nearest_of_representable m e hm he
    have hn0 := double.nearest_nonneg (a + b)
    rw [List.length_cons, List.sum_cons, pow_succ] at hfit ⊢
    rw [pow_succ]
    have hstep : addAll (some (a : WithTop ℚ)) (b :: l) = addAll (magnitudeAdd (some (a : WithTop ℚ)) (some (b : WithTop ℚ))) l := rfl
    rw [hstep]
    have hmax : (1 + 2 ^ (-53 : Int)) ^ l.length * (double.nearest (a + b) + l.sum) ≤ double.max := by
      refine le_trans ?_ hfit
      rw [mul_assoc]
      refine mul_le_mul_of_nonneg_left ?_ (by linarith)
      nlinarith
    have hle : double.nearest (a + b) ≤ double.max := by
      refine le_trans ?_ hmax
      nlinarith
    rw [magnitudeAdd_finite hle]
    obtain ⟨x, e1, e2, e3, e4, e5⟩ := ih _ hn0 hn hl hmax
    refine ⟨x, e1, e2, e3, le_trans ?_ e4, le_trans e5 ?_⟩
    · rw [mul_assoc]
      refine mul_le_mul_of_nonneg_left ?_ hpm
      nlinarith
    · rw [mul_assoc]
      refine mul_le_mul_of_nonneg_left ?_ (by linarith)
      nlinarith

theorem addAll_exact {s : Int} (hs : -1074 ≤ s) : ∀ (l : List ℚ) (a : ℚ), (∃ k : Nat, a = k * 2 ^ s) → (∀ x ∈ l, ∃ k : Nat, x = k * 2 ^ s) →
    a + l.sum ≤ 2 ^ 53 * 2 ^ s → a + l.sum ≤ double.max →
    addAll (some (a : WithTop ℚ)) l = some ((a + l.sum : ℚ) : WithTop ℚ) := by
  intro l
  induction l with
  | nil => intro a _ _ _ _; simp [addAll]
  | cons b l ih =>
    rintro a ⟨k, hk⟩ hall hfit hmax
    obtain ⟨j, hj⟩ := hall b (by simp)
    have hl : ∀ x ∈ l, ∃ k : Nat, x = k * 2 ^ s := fun x hx => hall x (List.mem_cons_of_mem _ hx)
    have hsum : 0 ≤ l.sum := List.sum_nonneg fun x hx => by
      obtain ⟨k, rfl⟩ := hl x hx
      exact mul_nonneg (Nat.cast_nonneg _) (two_pos _).le
    rw [List.sum_cons, ← add_assoc] at hfit hmax ⊢
    have hab : a + b = ((k + j : Nat) : ℚ) * 2 ^ s := by rw [hk, hj]; push_cast; ring
    have hle : k + j ≤ 2 ^ 53 := by
      have h1 : ((k + j : Nat) : ℚ) * 2 ^ s ≤ 2 ^ 53 * 2 ^ s := by rw [← hab]; linarith
      have := le_of_mul_le_mul_right h1 (two_pos s)
      exact_mod_cast this
    have hn : double.nearest (a + b) = a + b := by rw [hab]; exact whole_double hs hle
    have hstep : addAll (some (a : WithTop ℚ)) (b :: l) = addAll (magnitudeAdd (some (a : WithTop ℚ)) (some (b : WithTop ℚ))) l := rfl
    rw [hstep, magnitudeAdd_finite (by rw [hn]; linarith), hn]
    exact ih _ ⟨k + j, hab⟩ hl hfit hmax

theorem sum_indicator (i : Nat) (v : ℚ) : ∀ n, ((List.range n).map fun t => if i = t then v else 0).sum = if i < n then v else 0 := by
  intro n
  induction n with
  | zero => simp
  | succ n ih =>
    rw [List.range_succ, List.map_append, List.sum_append, ih]
    by_cases h : i < n
    · have : i ≠ n := by omega
      simp [h, this, Nat.lt_succ_of_lt h]
    · by_cases h2 : i = n
      · simp [h2]
      · have : ¬ i < n + 1 := by omega
        simp [h, h2, this]

/-- Sums by threads. -/
theorem sum_threads {α : Type} (f : Nat × α → ℚ) (n : Nat) : ∀ l : List (Nat × α), (∀ e ∈ l, e.1 < n) →
    ((List.range n).map fun t => ((l.filter fun e => e.1 = t).map f).sum).sum = (l.map f).sum := by
  intro l
  induction l with
  | nil => intro _; simp
  | cons e l ih =>
    intro h
    have he : e.1 < n := h e (by simp)
    have hsplit : (fun t => (((e :: l).filter fun e => e.1 = t).map f).sum) = fun t => (if e.1 = t then f e else 0) + ((l.filter fun e => e.1 = t).map f).sum := by
      funext t
      by_cases ht : e.1 = t
      · simp [ht]
      · simp [ht]
    rw [hsplit, List.sum_map_add, ih fun x hx => h x (List.mem_cons_of_mem _ hx), List.map_cons, List.sum_cons]
    congr 1
    rw [sum_indicator, if_pos he]

section
variable {V R O K : Type} [LinearOrder K] (X : PixelType V R O K)

/-- What the threads have added up. -/
theorem run_sums (P : Params K) (valid test : Image V) : ∀ (sched : Sched) (s s' : Shared O K), run X P valid test s sched = .ok s' → ∀ t,
    s'.sums t = (((sched.filter fun e => counted X P valid test e.2).filter fun e => e.1 = t).map fun e => X.root (pixelDifference X P valid test e.2).2).foldl X.add (s.sums t) := by
  intro sched
  induction sched with
  | nil => intro s s' h t; cases h; rfl
  | cons e sched ih =>
    intro s s' h t
    obtain ⟨i, p⟩ := e
    rw [run, step_eq] at h
    cases hw : written X P valid test p with
    | none => rw [hw] at h; cases h
    | some o =>
      rw [hw] at h
      simp only at h
      rw [ih _ _ h t]
      by_cases hc : counted X P valid test p = true
      · by_cases hi : i = t
        · subst hi; simp [hc, update]
        · simp [hc, hi, update, Ne.symm hi]
      · simp [hc]

end

end Verif.Itk.Any
