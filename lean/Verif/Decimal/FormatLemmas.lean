import Verif.Decimal.Lemmas

/-!
# Rounding to a binary format
-/

namespace Verif.Decimal
open Spec

theorem two_pos (e : Int) : (0 : ℚ) < 2 ^ e := zpow_pos (by norm_num) e

theorem log2_spec (q : ℚ) (hq : 0 < q) : (2 : ℚ) ^ Int.log 2 q ≤ q ∧ q < 2 ^ (Int.log 2 q + 1) := by
  have h1 := Int.zpow_log_le_self (b := 2) (r := q) (by norm_num) hq
  have h2 := Int.lt_zpow_succ_log_self (b := 2) (by norm_num) q
  exact ⟨by exact_mod_cast h1, by exact_mod_cast h2⟩

/-- A power of two as a multiple of a smaller one. -/
theorem two_multiple {u e : Int} (h : u ≤ e) : (2 : ℚ) ^ e = ((2 ^ (e - u).toNat : Int) : ℚ) * 2 ^ u := by
  push_cast
  rw [← zpow_natCast, ← zpow_add₀ (by norm_num)]
  congr 1
  omega

theorem Format.nearest_pos (F : Format) {q : ℚ} (hq : 0 < q) : F.nearest q = rne (q / 2 ^ F.ulpExp q) * 2 ^ F.ulpExp q := by
  rw [Format.nearest, if_neg (not_le.mpr hq)]

/-- A multiple of the unit of the last digit is not passed. -/
theorem Format.nearest_le_multiple (F : Format) {q : ℚ} (hq : 0 < q) (j : Int) (h : q ≤ j * 2 ^ F.ulpExp q) : F.nearest q ≤ j * 2 ^ F.ulpExp q := by
  rw [F.nearest_pos hq]
  refine mul_le_mul_of_nonneg_right ?_ (two_pos _).le
  exact_mod_cast rne_le ((div_le_iff₀ (two_pos _)).mpr h)

theorem Format.le_nearest_multiple (F : Format) {q : ℚ} (hq : 0 < q) (j : Int) (h : j * 2 ^ F.ulpExp q ≤ q) : j * 2 ^ F.ulpExp q ≤ F.nearest q := by
  rw [F.nearest_pos hq]
  refine mul_le_mul_of_nonneg_right ?_ (two_pos _).le
  exact_mod_cast rne_ge ((le_div_iff₀ (two_pos _)).mpr h)

theorem Format.nearest_le_two (F : Format) {q : ℚ} (hq : 0 < q) (e : Int) (he : F.ulpExp q ≤ e) (h : q ≤ 2 ^ e) : F.nearest q ≤ 2 ^ e := by
  rw [two_multiple he] at h ⊢
  exact F.nearest_le_multiple hq _ h

theorem Format.two_le_nearest (F : Format) {q : ℚ} (hq : 0 < q) (e : Int) (he : F.ulpExp q ≤ e) (h : 2 ^ e ≤ q) : 2 ^ e ≤ F.nearest q := by
  rw [two_multiple he] at h ⊢
  exact F.le_nearest_multiple hq _ h

theorem Format.nearest_nonneg (F : Format) (q : ℚ) : 0 ≤ F.nearest q := by
  by_cases hq : 0 < q
  · have := F.le_nearest_multiple hq 0 (by simpa using hq.le)
    simpa using this
  · rw [Format.nearest, if_pos (not_lt.mp hq)]

theorem Format.nearest_zero (F : Format) : F.nearest 0 = 0 := by simp [Format.nearest]

theorem Format.ulpExp_mono (F : Format) {a b : ℚ} (ha : 0 < a) (h : a ≤ b) : F.ulpExp a ≤ F.ulpExp b := by
  have := Int.log_mono_right (b := 2) ha h
  simp only [Format.ulpExp]
  omega

theorem Format.nearest_mono (F : Format) (hp : 0 < F.prec) {a b : ℚ} (h : a ≤ b) : F.nearest a ≤ F.nearest b := by
  by_cases ha : 0 < a
  · have hb : 0 < b := lt_of_lt_of_le ha h
    have hl := Int.log_mono_right (b := 2) ha h
    rcases (F.ulpExp_mono ha h).lt_or_eq with hlt | heq
    · -- different units: a power of two lies between
      have hu : F.ulpExp b = Int.log 2 b - F.prec + 1 := by simp only [Format.ulpExp] at hlt ⊢; omega
      have hlog : Int.log 2 a < Int.log 2 b := by
        rcases hl.lt_or_eq with h | h
        · exact h
        · exfalso; simp only [Format.ulpExp, h] at hlt; omega
      have h1 : F.nearest a ≤ 2 ^ Int.log 2 b := by
        refine F.nearest_le_two ha _ (by omega) ?_
        refine le_trans (log2_spec a ha).2.le ?_
        exact zpow_le_zpow_right₀ (by norm_num) (by omega)
      exact le_trans h1 (F.two_le_nearest hb _ (by omega) (log2_spec b hb).1)
    · rw [F.nearest_pos ha, F.nearest_pos hb, heq]
      refine mul_le_mul_of_nonneg_right ?_ (two_pos _).le
      have : rne (a / 2 ^ F.ulpExp b) ≤ rne (b / 2 ^ F.ulpExp b) := rne_mono (div_le_div_of_nonneg_right h (two_pos _).le)
      exact_mod_cast this
  · rw [Format.nearest, if_pos (not_lt.mp ha)]
    exact F.nearest_nonneg b

/-- No multiple of the unit of the last digit is closer. -/
theorem Format.nearest_best_multiple (F : Format) {q : ℚ} (hq : 0 < q) (j : Int) : |F.nearest q - q| ≤ |j * 2 ^ F.ulpExp q - q| := by
  rw [F.nearest_pos hq]
  have hs : q = q / 2 ^ F.ulpExp q * 2 ^ F.ulpExp q := by rw [div_mul_cancel₀ _ (two_pos _).ne']
  have hb := rne_best (q / 2 ^ F.ulpExp q) j
  generalize q / 2 ^ F.ulpExp q = x at hs hb ⊢
  generalize (2 : ℚ) ^ F.ulpExp q = u at hs ⊢
  rw [hs, ← sub_mul, ← sub_mul, abs_mul, abs_mul]
  exact mul_le_mul_of_nonneg_right hb (abs_nonneg u)

/-- No number of the format is closer. -/
theorem Format.nearest_best (F : Format) {q : ℚ} (hq : 0 ≤ q) (m : Nat) (e : Int) (hm : m < 2 ^ F.prec) (he : F.emin ≤ e) :
    |F.nearest q - q| ≤ |m * 2 ^ e - q| := by
  rcases hq.eq_or_lt with rfl | hq
  · rw [F.nearest_zero, sub_zero, abs_zero]; exact abs_nonneg _
  · by_cases hu : F.ulpExp q ≤ e
    · have h := F.nearest_best_multiple hq (m * 2 ^ (e - F.ulpExp q).toNat)
      have e1 : ((m * 2 ^ (e - F.ulpExp q).toNat : Int) : ℚ) * 2 ^ F.ulpExp q = m * 2 ^ e := by
        rw [two_multiple hu]; push_cast; ring
      rwa [e1] at h
    · have hul : F.ulpExp q = Int.log 2 q - F.prec + 1 := by simp only [Format.ulpExp] at hu ⊢; omega
      have hp : 0 < F.prec ∨ F.prec = 0 := by omega
      have h1 : (m : ℚ) * 2 ^ e ≤ 2 ^ Int.log 2 q := by
        have a : (m : ℚ) ≤ 2 ^ (F.prec : Int) := by rw [zpow_natCast]; exact_mod_cast hm.le
        calc (m : ℚ) * 2 ^ e ≤ 2 ^ (F.prec : Int) * 2 ^ e := mul_le_mul_of_nonneg_right a (two_pos _).le
          _ = 2 ^ ((F.prec : Int) + e) := by rw [← zpow_add₀ (by norm_num)]
          _ ≤ 2 ^ Int.log 2 q := zpow_le_zpow_right₀ (by norm_num) (by omega)
      rcases hp with hp | hp
      · have h2 := (log2_spec q hq).1
        have h3 := F.nearest_best_multiple hq (2 ^ (Int.log 2 q - F.ulpExp q).toNat)
        rw [← two_multiple (by omega : F.ulpExp q ≤ Int.log 2 q), abs_of_nonpos (sub_nonpos.mpr h2)] at h3
        rw [abs_of_nonpos (sub_nonpos.mpr (le_trans h1 h2))]
        linarith
      · have : m = 0 := by rw [hp] at hm; simpa using hm
        subst this
        have h3 := F.nearest_best_multiple hq 0
        simpa using h3

/-- A number of the format is not changed. -/
theorem Format.nearest_of_representable (F : Format) (m : Nat) (e : Int) (hm : m < 2 ^ F.prec) (he : F.emin ≤ e) :
    F.nearest (m * 2 ^ e) = m * 2 ^ e := by
  have hq : (0 : ℚ) ≤ m * 2 ^ e := mul_nonneg (by positivity) (two_pos _).le
  have := F.nearest_best hq m e hm he
  rw [sub_self, abs_zero] at this
  exact sub_eq_zero.mp (abs_eq_zero.mp (le_antisymm this (abs_nonneg _)))

/-- The result is a number of the format, with no upper bound of the exponent. -/
theorem Format.nearest_form (F : Format) (hp : 0 < F.prec) {q : ℚ} (hq : 0 ≤ q) : ∃ (m : Nat) (e : Int), m < 2 ^ F.prec ∧ F.emin ≤ e ∧ F.nearest q = m * 2 ^ e ∧
    (e = F.emin ∨ 2 ^ (F.prec - 1) ≤ m) := by
  rcases hq.eq_or_lt with rfl | hq
  · exact ⟨0, F.emin, Nat.pow_pos (by norm_num), le_rfl, by rw [F.nearest_zero]; simp, Or.inl rfl⟩
  · have hu : F.emin ≤ F.ulpExp q := by simp only [Format.ulpExp]; omega
    obtain ⟨l1, l2⟩ := log2_spec q hq
    have hn0 : 0 ≤ rne (q / 2 ^ F.ulpExp q) := rne_ge (by simpa using div_nonneg hq.le (two_pos _).le)
    have hn1 : rne (q / 2 ^ F.ulpExp q) ≤ 2 ^ F.prec := by
      refine rne_le ?_
      rw [div_le_iff₀ (two_pos _)]
      push_cast
      rw [← zpow_natCast, ← zpow_add₀ (by norm_num)]
      refine le_trans l2.le (zpow_le_zpow_right₀ (by norm_num) ?_)
      simp only [Format.ulpExp]; omega
    have hn2 : F.ulpExp q = F.emin ∨ 2 ^ (F.prec - 1) ≤ rne (q / 2 ^ F.ulpExp q) := by
      by_cases h : F.ulpExp q = F.emin
      · exact Or.inl h
      · right
        have hul : F.ulpExp q = Int.log 2 q - F.prec + 1 := by simp only [Format.ulpExp] at h ⊢; omega
        refine rne_ge ?_
        rw [le_div_iff₀ (two_pos _)]
        push_cast
        rw [← zpow_natCast, ← zpow_add₀ (by norm_num)]
        refine le_trans (zpow_le_zpow_right₀ (by norm_num) ?_) l1
        omega
    rw [F.nearest_pos hq]
    generalize rne (q / 2 ^ F.ulpExp q) = n at hn0 hn1 hn2 ⊢
    generalize F.ulpExp q = u at hu hn2 ⊢
    obtain ⟨k, rfl⟩ := Int.eq_ofNat_of_zero_le hn0
    have hk : k ≤ 2 ^ F.prec := by exact_mod_cast hn1
    rcases hk.lt_or_eq with hlt | heq
    · refine ⟨k, u, hlt, hu, by norm_cast, ?_⟩
      rcases hn2 with h | h
      · exact Or.inl h
      · exact Or.inr (by exact_mod_cast h)
    · refine ⟨2 ^ (F.prec - 1), u + 1, Nat.pow_lt_pow_right (by norm_num) (by omega), by omega, ?_, Or.inr le_rfl⟩
      rw [heq]
      push_cast
      rw [zpow_add₀ (by norm_num)]
      have : (2 : ℚ) ^ F.prec = 2 ^ (F.prec - 1) * 2 := by rw [← pow_succ]; congr 1; omega
      rw [this]; ring

theorem Format.max_representable (F : Format) (he : F.emin ≤ F.emax) : F.nearest F.max = F.max := by
  have h1 : (1 : Nat) ≤ 2 ^ F.prec := Nat.one_le_two_pow
  have e : F.max = ((2 ^ F.prec - 1 : Nat) : ℚ) * 2 ^ F.emax := by
    rw [Format.max]; push_cast [h1]; rfl
  rw [e]
  exact F.nearest_of_representable _ _ (by omega) he

theorem Format.representable_le_max (F : Format) {q : ℚ} (h : Representable F.prec F.emin F.emax q) : |q| ≤ F.max := by
  obtain ⟨m, e, hm, -, he, hq⟩ := h
  have h1 : (1 : Nat) ≤ 2 ^ F.prec := Nat.one_le_two_pow
  have hm' : (m : ℚ) ≤ 2 ^ F.prec - 1 := by
    have : m ≤ 2 ^ F.prec - 1 := by omega
    have := (Nat.cast_le (α := ℚ)).mpr this
    push_cast [h1] at this; exact this
  rw [hq, Format.max]
  calc (m : ℚ) * 2 ^ e ≤ (2 ^ F.prec - 1) * 2 ^ e := mul_le_mul_of_nonneg_right hm' (two_pos _).le
    _ ≤ _ := mul_le_mul_of_nonneg_left (zpow_le_zpow_right₀ (by norm_num) he) (le_trans (by positivity) hm')

/-- A result that is not too large is a number of the format. -/
theorem Format.nearest_representable (F : Format) (hp : 0 < F.prec) (hee : F.emin ≤ F.emax) {q : ℚ} (hq : 0 ≤ q) (h : F.nearest q ≤ F.max) :
    Representable F.prec F.emin F.emax (F.nearest q) := by
  obtain ⟨m, e, hm, he, hn, hc⟩ := F.nearest_form hp hq
  refine ⟨m, e, hm, he, ?_, by rw [abs_of_nonneg (F.nearest_nonneg q), hn]⟩
  rcases hc with hc | hc
  · omega
  · by_contra hlt
    rw [hn, Format.max] at h
    have h1 : (2 : ℚ) ^ (F.prec - 1) * 2 ^ (F.emax + 1) ≤ m * 2 ^ e :=
      mul_le_mul (by exact_mod_cast hc) (zpow_le_zpow_right₀ (by norm_num) (by omega)) (two_pos _).le (by positivity)
    have h2 : (2 : ℚ) ^ (F.prec - 1) * 2 ^ (F.emax + 1) = 2 ^ F.prec * 2 ^ F.emax := by
      rw [zpow_add₀ (by norm_num)]
      have : (2 : ℚ) ^ F.prec = 2 ^ (F.prec - 1) * 2 := by rw [← pow_succ]; congr 1; omega
      rw [this]; ring
    have := two_pos F.emax
    linarith

/-- The rounding of magnitudes of a format. -/
def Format.rounding (F : Format) (hp : 0 < F.prec) (h : 0 ≤ F.max) : Measurement.Rounding where
  rnd := F.round
  mono := by
    intro a b hab
    have := F.nearest_mono hp hab
    simp only [Format.round]
    split_ifs with h1 h2
    · exact WithTop.coe_le_coe.mpr this
    · exact le_top
    · exact absurd (le_trans this (by assumption)) h1
    · exact le_rfl
  zero := by
    rw [Format.round, F.nearest_zero, if_pos h]; rfl

/-- Rounding errors: half a unit of the last digit. -/
theorem Format.nearest_error (F : Format) {q : ℚ} (hq : 0 < q) : |F.nearest q - q| ≤ 2 ^ F.ulpExp q / 2 := by
  rw [F.nearest_pos hq]
  have hs : q = q / 2 ^ F.ulpExp q * 2 ^ F.ulpExp q := by rw [div_mul_cancel₀ _ (two_pos _).ne']
  have hb := rne_near (q / 2 ^ F.ulpExp q)
  have hu := two_pos (F.ulpExp q)
  generalize q / 2 ^ F.ulpExp q = x at hs hb ⊢
  generalize (2 : ℚ) ^ F.ulpExp q = u at hs hu ⊢
  rw [hs, ← sub_mul, abs_mul, abs_of_pos hu]
  calc _ ≤ 1 / 2 * u := mul_le_mul_of_nonneg_right hb hu.le
    _ = u / 2 := by ring

end Verif.Decimal
