import Verif.Decimal.Props

/-!
# Comparing and reading floating point numbers
-/

namespace Verif.Decimal
open Spec Verif.Measurement Verif.Measurement.Spec

/-! ## C85: comparison by text -/

theorem rounded_error {p : Nat} {q w : ℚ} (h : Rounded p q w) {e : Int} (he : Leading q e) : |w - q| ≤ 10 ^ (e + 1 - (p : Int)) / 2 := by
  obtain ⟨e', ⟨h1, h2⟩, -, h3⟩ := h
  have hee : e' = e := by
    have a := (zpow_lt_zpow_iff_right₀ (by norm_num : (1 : ℚ) < 10)).mp (lt_of_le_of_lt h1 he.2)
    have b := (zpow_lt_zpow_iff_right₀ (by norm_num : (1 : ℚ) < 10)).mp (lt_of_le_of_lt he.1 h2)
    omega
  subst hee
  refine le_trans (h3 (rne (q / 10 ^ (e' + 1 - (p : Int))))) ?_
  have hs : q = q / 10 ^ (e' + 1 - (p : Int)) * 10 ^ (e' + 1 - (p : Int)) := by rw [div_mul_cancel₀ _ (ten_pos _).ne']
  have hb := rne_near (q / 10 ^ (e' + 1 - (p : Int)))
  have hu := ten_pos (e' + 1 - (p : Int))
  generalize q / 10 ^ (e' + 1 - (p : Int)) = x at hs hb ⊢
  generalize (10 : ℚ) ^ (e' + 1 - (p : Int)) = u at hs hu ⊢
  rw [hs, ← sub_mul, abs_mul, abs_of_pos hu]
  calc _ ≤ 1 / 2 * u := mul_le_mul_of_nonneg_right hb hu.le
    _ = u / 2 := by ring

theorem leading_exists (q : ℚ) (hq : q ≠ 0) : ∃ e, Leading q e := ⟨_, log_spec |q| (abs_pos.mpr hq)⟩

/-- The text depends only on the value it stands for. -/
theorem write_determined (p : Nat) (hp : 0 < p) (q r : ℚ) (hq : q ≠ 0) (hr : r ≠ 0) (h : textValue p q = textValue p r) :
    write p (.ofRat q) = write p (.ofRat r) := by
  have p1 := sigValue_pos p hp |q| (abs_pos.mpr hq)
  have p2 := sigValue_pos p hp |r| (abs_pos.mpr hr)
  have hs : decide (q < 0) = decide (r < 0) ∧ sigValue p |q| = sigValue p |r| := by
    simp only [textValue, signed] at h
    by_cases hq' : q < 0 <;> by_cases hr' : r < 0 <;> simp [hq', hr'] at h ⊢ <;> linarith
  obtain ⟨a1, a2⟩ := sig_bounds p hp |q| (abs_pos.mpr hq)
  obtain ⟨b1, b2⟩ := sig_bounds p hp |r| (abs_pos.mpr hr)
  obtain ⟨h1, h2⟩ := sig_inj p _ _ _ _ a1 a2 b1 b2 hp hs.2
  rw [write_ne p q hq, write_ne p r hr, hs.1, h1, h2]

theorem write_zero (p : Nat) : Notation (write p (.ofRat 0)) 0 := by
  have : write p (Fp.ofRat 0) = b!"0" := by simp [Fp.ofRat, write, signText]
  rw [this]
  exact ⟨false, b!"0", [], [], 0, by simp, by intro c hc; rw [List.mem_singleton.mp hc]; decide, by simp [Digits], Or.inl ⟨rfl, rfl⟩, by simp, by simp [signed, horner]⟩

theorem textValue_ne (p : Nat) (hp : 0 < p) (q : ℚ) (hq : q ≠ 0) : textValue p q ≠ 0 := by
  have := sigValue_pos p hp |q| (abs_pos.mpr hq)
  simp only [textValue, signed]
  split <;> linarith [this]

theorem textValue_zero (p : Nat) : textValue p 0 = 0 := by
  have h : rne (0 : ℚ) = 0 := by exact_mod_cast rne_int 0
  have hp : (10 : Nat) ^ p ≠ 0 := by positivity
  simp [textValue, sigValue, significant, signed, h, hp.symm]

/-- The text is the notation of its value, also for 0. -/
theorem write_notation' (p : Nat) (hp : 0 < p) (q : ℚ) : Notation (write p (.ofRat q)) (textValue p q) := by
  by_cases hq : q = 0
  · rw [hq, textValue_zero]; exact write_zero p
  · exact write_notation p hp q hq

theorem write_eq_iff (p : Nat) (hp : 0 < p) (q r : ℚ) : write p (.ofRat q) = write p (.ofRat r) ↔ textValue p q = textValue p r := by
  constructor
  · intro h
    have := write_notation' p hp q
    rw [h] at this
    exact notation_unique this (write_notation' p hp r)
  · intro h
    by_cases hq : q = 0
    · by_cases hr : r = 0
      · rw [hq, hr]
      · rw [hq, textValue_zero] at h; exact absurd h.symm (textValue_ne p hp r hr)
    · by_cases hr : r = 0
      · rw [hr, textValue_zero] at h; exact absurd h (textValue_ne p hp q hq)
      · exact write_determined p hp q r hq hr h

/-- The error of the text, relative to the number. -/
theorem textValue_error (p : Nat) (hp : 0 < p) (q : ℚ) : |textValue p q - q| ≤ 10 ^ (1 - (p : Int)) / 2 * |q| := by
  by_cases hq : q = 0
  · rw [hq, textValue_zero]; simp
  · obtain ⟨e, he⟩ := leading_exists q hq
    refine le_trans (rounded_error (textValue_rounded p hp q hq) he) ?_
    have : (10 : ℚ) ^ (e + 1 - (p : Int)) = 10 ^ (1 - (p : Int)) * 10 ^ e := by rw [← zpow_add₀ (by norm_num)]; congr 1; omega
    rw [this]
    have := mul_le_mul_of_nonneg_left he.1 (ten_pos (1 - (p : Int))).le
    linarith

theorem write_close (p : Nat) (hp : 0 < p) (q r : ℚ) (h : write p (.ofRat q) = write p (.ofRat r)) :
    |q - r| ≤ 10 ^ (1 - (p : Int)) * max |q| |r| := by
  have h1 := textValue_error p hp q
  have h2 := textValue_error p hp r
  rw [(write_eq_iff p hp q r).mp h] at h1
  have h3 : |q - r| ≤ |textValue p r - q| + |textValue p r - r| := by
    have := abs_sub_le q (textValue p r) r
    rwa [abs_sub_comm q (textValue p r)] at this
  have hu := ten_pos (1 - (p : Int))
  have h4 := mul_le_mul_of_nonneg_left (le_max_left |q| |r|) hu.le
  have h5 := mul_le_mul_of_nonneg_left (le_max_right |q| |r|) hu.le
  linarith

theorem sigValue_mono (p : Nat) (hp : 0 < p) {a b : ℚ} (ha : 0 < a) (h : a ≤ b) : sigValue p a ≤ sigValue p b := by
  have hb := lt_of_lt_of_le ha h
  have hl : Int.log 10 a ≤ Int.log 10 b := Int.log_mono_right (b := 10) ha h
  rw [sigValue_eq p hp a ha, sigValue_eq p hp b hb]
  rcases hl.lt_or_eq with hlt | heq
  · have h1 := (sig_rne p hp a ha).2
    have h2 := (sig_rne p hp b hb).1
    have c1 : (rne (a * 10 ^ ((p : Int) - 1 - Int.log 10 a)) : ℚ) * 10 ^ (Int.log 10 a + 1 - (p : Int)) ≤ 10 ^ (Int.log 10 a + 1) := by
      have e : (10 : ℚ) ^ (Int.log 10 a + 1) = 10 ^ p * 10 ^ (Int.log 10 a + 1 - (p : Int)) := by
        rw [← zpow_natCast, ← zpow_add₀ (by norm_num)]; congr 1; omega
      rw [e]
      exact mul_le_mul_of_nonneg_right (by exact_mod_cast h1) (ten_pos _).le
    have c2 : (10 : ℚ) ^ Int.log 10 b ≤ rne (b * 10 ^ ((p : Int) - 1 - Int.log 10 b)) * 10 ^ (Int.log 10 b + 1 - (p : Int)) := by
      have e : (10 : ℚ) ^ Int.log 10 b = 10 ^ (p - 1) * 10 ^ (Int.log 10 b + 1 - (p : Int)) := by
        rw [← zpow_natCast, ← zpow_add₀ (by norm_num)]; congr 1; omega
      rw [e]
      exact mul_le_mul_of_nonneg_right (by exact_mod_cast h2) (ten_pos _).le
    exact le_trans c1 (le_trans (zpow_le_zpow_right₀ (by norm_num) (by omega)) c2)
  · rw [heq]
    refine mul_le_mul_of_nonneg_right ?_ (ten_pos _).le
    exact_mod_cast rne_mono (mul_le_mul_of_nonneg_right h (ten_pos _).le)

theorem sigValue_nonneg (p : Nat) (q : ℚ) : 0 ≤ sigValue p q := by
  rw [sigValue]; exact mul_nonneg (by positivity) (ten_pos _).le

theorem textValue_mono (p : Nat) (hp : 0 < p) {q r : ℚ} (h : q ≤ r) : textValue p q ≤ textValue p r := by
  by_cases hq : q < 0
  · by_cases hr : r < 0
    · have := sigValue_mono p hp (abs_pos.mpr hr.ne) (by rw [abs_of_neg hq, abs_of_neg hr]; linarith : |r| ≤ |q|)
      simp only [textValue, signed, hq, hr, decide_true, if_true]
      linarith
    · have h1 := sigValue_nonneg p |q|
      have h2 := sigValue_nonneg p |r|
      simp only [textValue, signed, hq, hr, decide_true, decide_false, if_true]
      simp only [Bool.false_eq_true, if_false]
      linarith
  · have hr : ¬ r < 0 := by linarith
    rcases (not_lt.mp hq).eq_or_lt with h0 | h0
    · rw [← h0, textValue_zero]
      have h2 := sigValue_nonneg p |r|
      simp only [textValue, signed, hr, decide_false, Bool.false_eq_true, if_false]
      exact h2
    · have := sigValue_mono p hp (abs_pos.mpr h0.ne') (by rw [abs_of_pos h0, abs_of_nonneg (not_lt.mp hr)]; exact h : |q| ≤ |r|)
      simp only [textValue, signed, hq, hr, decide_false, Bool.false_eq_true, if_false]
      exact this

/-- **C85.** Without tolerance two double measurements compare equal exactly when their names and their texts are equal. -/
theorem C85_compared_by_text (v : CompareVisitor) (hv : v.getTolerance = 0) (env : NumEnv) (files : Files) (n m : Str) (a b : Fp) :
    (v.visit env files (.data (setDouble { kind := .num .double, name := n } a)) (.data (setDouble { kind := .num .double, name := m } b))).2.2 =
      .ok (decide (n = m ∧ doubleText a = doubleText b)) ∧
    (v.visit env files (.data (setFloat { kind := .num .float, name := n } a)) (.data (setFloat { kind := .num .float, name := m } b))).2.2 =
      .ok (decide (n = m ∧ floatText a = floatText b)) := by
  constructor
  · rw [C30_zero_tolerance_exact v hv env files _ _ (doubleText a) (doubleText b) (Or.inr ⟨rfl, by show b!"none" ≠ b!"base64"; decide, rfl⟩) (Or.inr ⟨rfl, by show b!"none" ≠ b!"base64"; decide, rfl⟩)]
    simp [setDouble, DataM.setContent]
  · rw [C30_zero_tolerance_exact v hv env files _ _ (floatText a) (floatText b) (Or.inr ⟨rfl, by show b!"none" ≠ b!"base64"; decide, rfl⟩) (Or.inr ⟨rfl, by show b!"none" ≠ b!"base64"; decide, rfl⟩)]
    simp [setFloat, DataM.setContent]

/-- **C85.** Values that differ by more than 10^-6 (floats) or 10^-15 (doubles) of the larger one never have the same text. -/
theorem C85_far_values_differ (q r : ℚ) :
    (10 ^ (-6 : Int) * max |q| |r| < |q - r| → floatText (.ofRat q) ≠ floatText (.ofRat r)) ∧
    (10 ^ (-15 : Int) * max |q| |r| < |q - r| → doubleText (.ofRat q) ≠ doubleText (.ofRat r)) :=
  ⟨fun h he => absurd (write_close 7 (by norm_num) q r he) (not_le.mpr (by simpa using h)),
    fun h he => absurd (write_close 16 (by norm_num) q r he) (not_le.mpr (by simpa using h))⟩

/-- **C85.** The texts of two values are the same if and only if they stand for the same number. -/
theorem C85_text_of_value (q r w w' : ℚ) :
    (Notation (floatText (.ofRat q)) w → Notation (floatText (.ofRat r)) w' → (floatText (.ofRat q) = floatText (.ofRat r) ↔ w = w')) ∧
    (Notation (doubleText (.ofRat q)) w → Notation (doubleText (.ofRat r)) w' → (doubleText (.ofRat q) = doubleText (.ofRat r) ↔ w = w')) := by
  constructor
  · intro h1 h2
    rw [notation_unique h1 (write_notation' 7 (by norm_num) q), notation_unique h2 (write_notation' 7 (by norm_num) r)]
    exact write_eq_iff 7 (by norm_num) q r
  · intro h1 h2
    rw [notation_unique h1 (write_notation' 16 (by norm_num) q), notation_unique h2 (write_notation' 16 (by norm_num) r)]
    exact write_eq_iff 16 (by norm_num) q r

/-- **C85.** The numbers with the same text form an interval: no number between two of them has another text. -/
theorem C85_interval (q s r : ℚ) (h1 : q ≤ s) (h2 : s ≤ r) :
    (floatText (.ofRat q) = floatText (.ofRat r) → floatText (.ofRat s) = floatText (.ofRat q)) ∧
    (doubleText (.ofRat q) = doubleText (.ofRat r) → doubleText (.ofRat s) = doubleText (.ofRat q)) := by
  have key : ∀ p, 0 < p → write p (.ofRat q) = write p (.ofRat r) → write p (.ofRat s) = write p (.ofRat q) := by
    intro p hp h
    rw [write_eq_iff p hp] at h ⊢
    exact le_antisymm (by rw [h]; exact textValue_mono p hp h2) (textValue_mono p hp h1)
  exact ⟨key 7 (by norm_num), key 16 (by norm_num)⟩

/-- **C85, negative.** Different floats, and different doubles, can have the same text, so that they compare equal without tolerance: 1 and the next
double, 2^24 and the next float. -/
theorem C85_collisions : (∃ q r, IsDouble q ∧ IsDouble r ∧ q ≠ r ∧ doubleText (.ofRat q) = doubleText (.ofRat r)) ∧
    (∃ q r, IsFloat q ∧ IsFloat r ∧ q ≠ r ∧ floatText (.ofRat q) = floatText (.ofRat r)) := by
  refine ⟨⟨1, 1 + 1 / 2 ^ 52, ⟨1, 0, by norm_num, by norm_num, by norm_num, by norm_num⟩,
      ⟨2 ^ 52 + 1, -52, by norm_num, by norm_num, by norm_num, ?_⟩, by norm_num, by decide +kernel⟩,
    ⟨2 ^ 24, 2 ^ 24 + 2, ⟨1, 24, by norm_num, by norm_num, by norm_num, by norm_num⟩,
      ⟨2 ^ 23 + 1, 1, by norm_num, by norm_num, by norm_num, by norm_num⟩, by norm_num, by decide +kernel⟩⟩
  rw [abs_of_pos (by norm_num)]; norm_num

/-- **C85, negative.** Zero and negative zero, which are equal numbers, have different texts. -/
theorem C85_negative_zero : doubleText (.finite false 0) ≠ doubleText (.finite true 0) ∧ floatText (.finite false 0) ≠ floatText (.finite true 0) := by
  decide +kernel

end Verif.Decimal
