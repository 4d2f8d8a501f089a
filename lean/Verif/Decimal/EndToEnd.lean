import Verif.Decimal.TolerantProps
import Verif.Measurement.CompareSpec

/-!
# Tolerance, from the numbers that are measured to the result of the comparison
-/

namespace Verif.Decimal
open Spec Verif.Measurement Verif.Measurement.Spec

/-- The relative and the absolute accuracy of rounding to a format. -/
theorem Format.nearest_accuracy (F : Format) {a : ℚ} (ha : 0 ≤ a) : |F.nearest a - a| ≤ 2 ^ (-(F.prec : Int)) * a + 2 ^ (F.emin - 1) := by
  rcases ha.eq_or_lt with rfl | ha
  · rw [F.nearest_zero, sub_self, abs_zero, mul_zero, zero_add]
    exact (two_pos _).le
  · refine (F.nearest_error ha).trans ?_
    have h2 : (2 : ℚ) ^ F.ulpExp a / 2 = 2 ^ (F.ulpExp a - 1) := by rw [zpow_sub₀ (by norm_num)]; norm_num
    rw [h2]
    have hl : (2 : ℚ) ^ Int.log 2 a ≤ a := by exact_mod_cast Int.zpow_log_le_self (b := 2) (by norm_num) ha
    by_cases h : Int.log 2 a - (F.prec : Int) + 1 ≤ F.emin
    · have : F.ulpExp a = F.emin := by simp only [Format.ulpExp]; omega
      rw [this]
      have : 0 ≤ (2 : ℚ) ^ (-(F.prec : Int)) * a := mul_nonneg (two_pos _).le ha.le
      linarith
    · have : F.ulpExp a = Int.log 2 a - (F.prec : Int) + 1 := by simp only [Format.ulpExp]; omega
      rw [this, show Int.log 2 a - (F.prec : Int) + 1 - 1 = -(F.prec : Int) + Int.log 2 a by ring, zpow_add₀ (by norm_num)]
      have := mul_le_mul_of_nonneg_left hl (two_pos (-(F.prec : Int))).le
      have := (two_pos (F.emin - 1)).le
      linarith

theorem round_le_round {F D : Format} {a b : ℚ} (h1 : F.nearest a ≤ F.max) (h : F.nearest a ≤ D.nearest b) : F.round a ≤ D.round b := by
  rw [Format.round, if_pos h1, Format.round]
  split
  · exact_mod_cast h
  · exact le_top

theorem of_round_le_round {F D : Format} {a b : ℚ} (h1 : D.nearest b ≤ D.max) (h : F.round a ≤ D.round b) : F.nearest a ≤ D.nearest b := by
  simp only [Format.round, if_pos h1] at h
  split at h
  · exact_mod_cast h
  · exact absurd h (by simp)

/-- One side of the comparison accepts values that are close enough. -/
theorem accepts {F D : Format} (hpF : 0 < F.prec) (heF : F.emin ≤ F.emax) {η u α u' α' tol q r q' r' : ℚ}
    (hη : 0 < η) (hu : 0 ≤ u) (hu8 : u + 2 * u' ≤ η / 2) (htol : 0 < tol) (ht1 : tol ≤ 1) (hη1 : η ≤ 1 / 10)
    (hu' : 0 ≤ u') (hα : α + α' ≤ η / 2 * |q|)
    (aF : ∀ a, 0 ≤ a → |F.nearest a - a| ≤ u * a + α) (aD : ∀ a, 0 ≤ a → |D.nearest a - a| ≤ u' * a + α')
    (hq : |q' - q| ≤ η * |q|) (hr : |r' - r| ≤ η * |r|) (hm : |q| ≤ F.max) (h : |q - r| ≤ (tol - 5 * η) * |q|) :
    F.round |q' - r'| ≤ D.round (tol * |q'|) := by
  have hq0 := abs_nonneg q
  have h1 : |r| ≤ 2 * |q| := by
    have := abs_sub_abs_le_abs_sub r q
    rw [abs_sub_comm] at this
    nlinarith
  have ha : |q' - r'| ≤ |q - r| + η * |q| + η * |r| := by
    have e : q' - r' = (q - r) + (q' - q) + (r - r') := by ring
    have t1 := abs_add_le ((q - r) + (q' - q)) (r - r')
    have t2 := abs_add_le (q - r) (q' - q)
    rw [← e] at t1
    rw [abs_sub_comm r r'] at t1
    linarith
  have hq1 : |q| - η * |q| ≤ |q'| := by
    have := abs_sub_abs_le_abs_sub q q'
    rw [abs_sub_comm] at this
    linarith
  have hq2 : |q'| ≤ 2 * |q| := by
    have := abs_sub_abs_le_abs_sub q' q
    nlinarith
  have ha' : |q' - r'| ≤ tol * |q| - 2 * (η * |q|) := by nlinarith
  have haq : |q' - r'| ≤ |q| := by nlinarith [mul_nonneg hη.le hq0]
  have n1 := abs_le.mp (aF _ (abs_nonneg (q' - r')))
  have n2 := abs_le.mp (aD _ (mul_nonneg htol.le (abs_nonneg q')))
  have b1 : tol * |q| - η * |q| ≤ tol * |q'| := by nlinarith [mul_nonneg hη.le hq0]
  have b2 : tol * |q'| ≤ 2 * |q| := by nlinarith [abs_nonneg q']
  have b3 : u * |q' - r'| ≤ u * |q| := mul_le_mul_of_nonneg_left haq hu
  have b4 : u' * (tol * |q'|) ≤ u' * (2 * |q|) := mul_le_mul_of_nonneg_left b2 hu'
  have b5 : (u + 2 * u') * |q| ≤ η / 2 * |q| := mul_le_mul_of_nonneg_right hu8 hq0
  refine round_le_round ?_ ?_
  · have := F.nearest_mono hpF (haq.trans hm)
    rwa [F.max_representable heF] at this
  · nlinarith

/-- One side of the comparison rejects values that are too far apart. -/
theorem rejects {F D : Format} (hpD : 0 < D.prec) (heD : D.emin ≤ D.emax) {η u α u' α' tol q r q' r' M : ℚ}
    (hη : 0 < η) (hu : 0 ≤ u) (hu8 : 3 * u + 2 * u' ≤ η) (htol : 0 < tol) (ht1 : tol ≤ 1) (hη1 : η ≤ 1 / 10)
    (hu' : 0 ≤ u') (hα : α + α' ≤ η * M) (hqM : |q| ≤ M) (hrM : |r| ≤ M)
    (aF : ∀ a, 0 ≤ a → |F.nearest a - a| ≤ u * a + α) (aD : ∀ a, 0 ≤ a → |D.nearest a - a| ≤ u' * a + α')
    (hq : |q' - q| ≤ η * |q|) (hr : |r' - r| ≤ η * |r|) (hm : |q'| ≤ D.max) (h : F.round |q' - r'| ≤ D.round (tol * |q'|)) :
    |q - r| ≤ (tol + 5 * η) * M := by
  have hq0 := abs_nonneg q
  have hM : 0 ≤ M := hq0.trans hqM
  have hb : tol * |q'| ≤ D.max := by nlinarith [abs_nonneg q']
  have hn := of_round_le_round (by have := D.nearest_mono hpD hb; rwa [D.max_representable heD] at this) h
  have e1 : η * |q| ≤ η * M := mul_le_mul_of_nonneg_left hqM hη.le
  have e2 : η * |r| ≤ η * M := mul_le_mul_of_nonneg_left hrM hη.le
  have e3 : η * M ≤ 1 / 10 * M := mul_le_mul_of_nonneg_right hη1 hM
  have t0 : |q - r| ≤ |q| + |r| := abs_sub q r
  have ha : |q' - r'| ≤ |q - r| + η * |q| + η * |r| := by
    have e : q' - r' = (q - r) + (q' - q) + (r - r') := by ring
    have t1 := abs_add_le ((q - r) + (q' - q)) (r - r')
    have t2 := abs_add_le (q - r) (q' - q)
    rw [← e] at t1
    rw [abs_sub_comm r r'] at t1
    linarith
  have ha2 : |q - r| ≤ |q' - r'| + η * |q| + η * |r| := by
    have e : q - r = (q' - r') + (q - q') + (r' - r) := by ring
    have t1 := abs_add_le ((q' - r') + (q - q')) (r' - r)
    have t2 := abs_add_le (q' - r') (q - q')
    rw [← e] at t1
    rw [abs_sub_comm q q'] at t2
    linarith
  have ha3 : |q' - r'| ≤ 3 * M := by linarith
  have hq2 : |q'| ≤ |q| + η * |q| := by
    have := abs_sub_abs_le_abs_sub q' q
    linarith
  have n1 := abs_le.mp (aF _ (abs_nonneg (q' - r')))
  have n2 := abs_le.mp (aD _ (mul_nonneg htol.le (abs_nonneg q')))
  have b1 : tol * |q'| ≤ tol * M + η * M := by
    have : tol * |q'| ≤ tol * (M + η * M) := mul_le_mul_of_nonneg_left (by linarith) htol.le
    have : tol * (η * M) ≤ 1 * (η * M) := mul_le_mul_of_nonneg_right ht1 (mul_nonneg hη.le hM)
    linarith
  have b2 : tol * |q'| ≤ 2 * M := by
    have : tol * |q'| ≤ 1 * |q'| := mul_le_mul_of_nonneg_right ht1 (abs_nonneg _)
    linarith
  have b3 : u * |q' - r'| ≤ u * (3 * M) := mul_le_mul_of_nonneg_left ha3 hu
  have b4 : u' * (tol * |q'|) ≤ u' * (2 * M) := mul_le_mul_of_nonneg_left b2 hu'
  have b5 : (3 * u + 2 * u') * M ≤ η * M := mul_le_mul_of_nonneg_right hu8 hM
  linarith

theorem close_of_max {e q r : ℚ} (h : |q - r| ≤ e * max |q| |r|) : Close e q r := by
  rcases le_total |q| |r| with hh | hh
  · rw [max_eq_right hh] at h; exact Or.inr h
  · rw [max_eq_left hh] at h; exact Or.inl h

theorem tolerantEqual_iff (t d : Rounding) (eps lm rm tol : ℚ) (ht : 0 < tol) : tolerantEqual t d eps lm rm tol = true ↔
    t.rnd |lm - rm| ≤ d.rnd (tol * |lm|) ∨ t.rnd |lm - rm| ≤ d.rnd (tol * |rm|) ∨ (|lm| < eps ∧ |rm| < eps) := by
  simp [tolerantEqual, abs_of_pos ht, or_assoc]

/-- The comparison of the numbers that are read, in terms of the numbers that were written, up to their difference. -/
theorem tolerant_written {F D : Format} {t d : Rounding} (ht : t.rnd = F.round) (hd : d.rnd = D.round) (hpF : 0 < F.prec) (heF : F.emin ≤ F.emax)
    (hpD : 0 < D.prec) (heD : D.emin ≤ D.emax) {η tol eps q r q' r' : ℚ}
    (hη : 0 < η) (hη1 : η ≤ 1 / 10) (htol : 0 < tol) (ht1 : tol ≤ 1) (heps : 0 < eps)
    (hu : (2 : ℚ) ^ (-(F.prec : Int)) + 2 * 2 ^ (-(D.prec : Int)) ≤ η / 2) (hu3 : 3 * (2 : ℚ) ^ (-(F.prec : Int)) + 2 * 2 ^ (-(D.prec : Int)) ≤ η)
    (hα : (2 : ℚ) ^ (F.emin - 1) + 2 ^ (D.emin - 1) ≤ η / 2 * (eps / 4))
    (hq : |q' - q| ≤ η * |q|) (hr : |r' - r| ≤ η * |r|) (hmq : |q| ≤ F.max) (hmr : |r| ≤ F.max) (hmq' : |q'| ≤ D.max) (hmr' : |r'| ≤ D.max) :
    (Close (tol - 5 * η) q r → tolerantEqual t d eps q' r' tol = true) ∧
    (tolerantEqual t d eps q' r' tol = true → Close (tol + 5 * η) q r ∨ (|q| < 2 * eps ∧ |r| < 2 * eps)) := by
  rw [tolerantEqual_iff _ _ _ _ _ _ htol, ht, hd]
  have u1 := two_pos (-(F.prec : Int))
  have u2 := two_pos (-(D.prec : Int))
  have accF : ∀ a, 0 ≤ a → |F.nearest a - a| ≤ 2 ^ (-(F.prec : Int)) * a + 2 ^ (F.emin - 1) := fun a ha => F.nearest_accuracy ha
  have accD : ∀ a, 0 ≤ a → |D.nearest a - a| ≤ 2 ^ (-(D.prec : Int)) * a + 2 ^ (D.emin - 1) := fun a ha => D.nearest_accuracy ha
  have hswap : |q' - r'| = |r' - q'| := abs_sub_comm _ _
  have hsw : |q - r| = |r - q| := abs_sub_comm _ _
  have up : ∀ x x' : ℚ, |x' - x| ≤ η * |x| → |x'| ≤ |x| + η * |x| ∧ |x| - η * |x| ≤ |x'| := by
    intro x x' h
    have h1 := abs_sub_abs_le_abs_sub x' x
    have h2 := abs_sub_abs_le_abs_sub x x'
    rw [abs_sub_comm x x'] at h2
    constructor <;> linarith
  have hη2 : ∀ x : ℚ, η * |x| ≤ 1 / 10 * |x| := fun x => mul_le_mul_of_nonneg_right hη1 (abs_nonneg x)
  constructor
  · -- values near zero
    have small : ∀ x y x' y' : ℚ, |x' - x| ≤ η * |x| → |y' - y| ≤ η * |y| → |x - y| ≤ (tol - 5 * η) * |x| → |x| < eps / 4 → |x'| < eps ∧ |y'| < eps := by
      intro x y x' y' hx hy h hs
      have h0 := abs_nonneg x
      have h1 : |y| ≤ 2 * |x| := by
        have := abs_sub_abs_le_abs_sub y x
        rw [abs_sub_comm] at this
        nlinarith
      have a1 := (up x x' hx).1
      have a2 := (up y y' hy).1
      have a3 := hη2 x
      have a4 := hη2 y
      constructor <;> linarith
    have big : ∀ x : ℚ, eps / 4 ≤ |x| → (2 : ℚ) ^ (F.emin - 1) + 2 ^ (D.emin - 1) ≤ η / 2 * |x| := by
      intro x hx
      exact hα.trans (mul_le_mul_of_nonneg_left hx (by linarith))
    rintro (h | h)
    · by_cases hs : |q| < eps / 4
      · exact Or.inr (Or.inr (small q r q' r' hq hr h hs))
      · exact Or.inl (accepts hpF heF hη u1.le hu htol ht1 hη1 u2.le (big q (not_lt.mp hs)) accF accD hq hr hmq h)
    · rw [hsw] at h
      by_cases hs : |r| < eps / 4
      · exact Or.inr (Or.inr (small r q r' q' hr hq h hs).symm)
      · rw [hswap]
        exact Or.inr (Or.inl (accepts hpF heF hη u1.le hu htol ht1 hη1 u2.le (big r (not_lt.mp hs)) accF accD hr hq hmr h))
  · intro h
    by_cases hs : |q| < 2 * eps ∧ |r| < 2 * eps
    · exact Or.inr hs
    · left
      apply close_of_max
      have hM : eps / 4 ≤ max |q| |r| := by
        rcases not_and_or.mp hs with hh | hh
        · exact le_trans (by linarith [not_lt.mp hh]) (le_max_left _ _)
        · exact le_trans (by linarith [not_lt.mp hh]) (le_max_right _ _)
      have hM0 : 0 ≤ max |q| |r| := by linarith
      have hαM : (2 : ℚ) ^ (F.emin - 1) + 2 ^ (D.emin - 1) ≤ η * max |q| |r| := by
        have := mul_le_mul_of_nonneg_left hM (show 0 ≤ η / 2 by linarith)
        have := mul_nonneg hη.le hM0
        linarith
      rcases h with h | h | h
      · exact rejects hpD heD hη u1.le hu3 htol ht1 hη1 u2.le hαM (le_max_left _ _) (le_max_right _ _) accF accD hq hr hmq' h
      · rw [hswap] at h
        rw [hsw]
        exact rejects hpD heD hη u1.le hu3 htol ht1 hη1 u2.le hαM (le_max_right _ _) (le_max_left _ _) accF accD hr hq hmr' h
      · refine absurd ⟨?_, ?_⟩ hs
        · have a1 := (up q q' hq).2
          have a3 := hη2 q
          have := h.1
          linarith [abs_nonneg q]
        · have a1 := (up r r' hr).2
          have a3 := hη2 r
          have := h.2
          linarith [abs_nonneg r]

theorem tiny (F D : Format) (hF : F.emin - 1 ≤ -150) (hD : D.emin - 1 ≤ -150) {x : ℚ} (hx : 2 ^ (-149 : Int) ≤ x) :
    (2 : ℚ) ^ (F.emin - 1) + 2 ^ (D.emin - 1) ≤ x := by
  have h1 : (2 : ℚ) ^ (F.emin - 1) ≤ 2 ^ (-150 : Int) := zpow_le_zpow_right₀ (by norm_num) hF
  have h2 : (2 : ℚ) ^ (D.emin - 1) ≤ 2 ^ (-150 : Int) := zpow_le_zpow_right₀ (by norm_num) hD
  have h3 : (2 : ℚ) ^ (-149 : Int) = 2 ^ (-150 : Int) + 2 ^ (-150 : Int) := by norm_num
  linarith

theorem single_le_double : single.max ≤ double.max := by decide +kernel

/-- **C88.** Two doubles are measured and compared with a tolerance up to 1: the comparison passes if they are close with a tolerance that is 5·10^-15
smaller; it passes only if they are close with a tolerance that is 5·10^-15 larger, or both are less than 2^-51. -/
theorem C88_double (v : CompareVisitor) (htol : 0 < v.getTolerance) (ht1 : v.getTolerance ≤ 1) (files : Files) (n m : Str) (q r : ℚ) (hq : IsDouble q) (hr : IsDouble r) :
    ∃ b, (v.visit ieee files (.data (setDouble { kind := .num .double, name := n } (.ofRat q))) (.data (setDouble { kind := .num .double, name := m } (.ofRat r)))).2.2 = .ok b ∧
      (Close (v.getTolerance - 5 / 10 ^ 15) q r → b = true) ∧
      (b = true → Close (v.getTolerance + 5 / 10 ^ 15) q r ∨ (|q| < 1 / 2 ^ 51 ∧ |r| < 1 / 2 ^ 51)) := by
  have hk : ∀ (n : Str) (a : Fp), (setDouble { kind := .num .double, name := n } a).kind = .num .double ∧ (setDouble { kind := .num .double, name := n } a).content = doubleText a := fun _ _ => ⟨rfl, rfl⟩
  rw [visit_data, (hk _ _).1]
  simp only
  rw [compareNumeric_eq v ieee files _ _ .double .double (hk _ _).1 (hk _ _).1, if_pos htol.ne']
  refine ⟨_, rfl, ?_⟩
  simp only [(hk _ _).2]
  obtain ⟨-, h2⟩ := C87_read_back q
  obtain ⟨-, h4⟩ := C87_read_back r
  have key := tolerant_written (F := double) (D := double) (t := ieee.double) (d := ieee.double) rfl rfl (by decide) (by decide) (by decide) (by decide)
    (η := 10 ^ (-15 : Int)) (tol := v.getTolerance) (eps := 1 / 2 ^ 52) (by positivity) (by norm_num) htol ht1 (by positivity)
    (by norm_num [double]) (by norm_num [double]) (tiny double double (by decide) (by decide) (by norm_num)) (h2 hq).2 (h4 hr).2 (double.representable_le_max hq) (double.representable_le_max hr)
    (double.representable_le_max (h2 hq).1) (double.representable_le_max (h4 hr).1)
  have e1 : (5 : ℚ) * 10 ^ (-15 : Int) = 5 / 10 ^ 15 := by norm_num
  have e2 : (2 : ℚ) * (1 / 2 ^ 52) = 1 / 2 ^ 51 := by norm_num
  rw [e1, e2] at key
  exact key

/-- **C88.** The same for floats, with 5·10^-6 and 2^-22. -/
theorem C88_float (v : CompareVisitor) (htol : 0 < v.getTolerance) (ht1 : v.getTolerance ≤ 1) (files : Files) (n m : Str) (q r : ℚ) (hq : IsFloat q) (hr : IsFloat r) :
    ∃ b, (v.visit ieee files (.data (setFloat { kind := .num .float, name := n } (.ofRat q))) (.data (setFloat { kind := .num .float, name := m } (.ofRat r)))).2.2 = .ok b ∧
      (Close (v.getTolerance - 5 / 10 ^ 6) q r → b = true) ∧
      (b = true → Close (v.getTolerance + 5 / 10 ^ 6) q r ∨ (|q| < 1 / 2 ^ 22 ∧ |r| < 1 / 2 ^ 22)) := by
  have hk : ∀ (n : Str) (a : Fp), (setFloat { kind := .num .float, name := n } a).kind = .num .float ∧ (setFloat { kind := .num .float, name := n } a).content = floatText a := fun _ _ => ⟨rfl, rfl⟩
  rw [visit_data, (hk _ _).1]
  simp only
  rw [compareNumeric_eq v ieee files _ _ .float .float (hk _ _).1 (hk _ _).1, if_pos htol.ne']
  refine ⟨_, rfl, ?_⟩
  simp only [(hk _ _).2]
  obtain ⟨h2, -⟩ := C87_read_back q
  obtain ⟨h4, -⟩ := C87_read_back r
  have key := tolerant_written (F := single) (D := double) (t := ieee.single) (d := ieee.double) rfl rfl (by decide) (by decide) (by decide) (by decide)
    (η := 10 ^ (-6 : Int)) (tol := v.getTolerance) (eps := 1 / 2 ^ 23) (by positivity) (by norm_num) htol ht1 (by positivity)
    (by norm_num [single, double]) (by norm_num [single, double]) (tiny single double (by decide) (by decide) (by norm_num)) (h2 hq).2 (h4 hr).2 (single.representable_le_max hq) (single.representable_le_max hr)
    ((single.representable_le_max (h2 hq).1).trans single_le_double) ((single.representable_le_max (h4 hr).1).trans single_le_double)
  have e1 : (5 : ℚ) * 10 ^ (-6 : Int) = 5 / 10 ^ 6 := by norm_num
  have e2 : (2 : ℚ) * (1 / 2 ^ 23) = 1 / 2 ^ 22 := by norm_num
  rw [e1, e2] at key
  exact key

/-- The hypotheses are met: 1 and 1.5 are close with tolerance 1/2 - 10^-15 (of 1.5), and not with tolerance 1/4. -/
example : IsDouble 1 ∧ IsDouble (3 / 2) ∧ Close (2 / 5 - 5 / 10 ^ 15) 1 (3 / 2) ∧ ¬ Close (1 / 4 + 5 / 10 ^ 15) 1 (3 / 2) := by
  refine ⟨⟨1, 0, by norm_num, by norm_num, by norm_num, by norm_num⟩, ⟨3, -1, by norm_num, by norm_num, by norm_num, ?_⟩, Or.inr ?_, ?_⟩
  · rw [abs_of_pos (by norm_num)]; norm_num
  · norm_num [abs_of_pos, abs_of_neg]
  · simp only [Close]; norm_num [abs_of_pos, abs_of_neg]

end Verif.Decimal
