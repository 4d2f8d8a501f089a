import Verif.Decimal.Env
import Verif.Decimal.CompareProps

/-!
# Reading floating point numbers, and comparing them with a tolerance
-/

namespace Verif.Decimal
open Spec Verif.Measurement Verif.Measurement.Spec

/-! ## C87: reading -/

theorem textValue_sign (p : Nat) (hp : 0 < p) (q : ℚ) : textValue p q < 0 ↔ q < 0 := by
  constructor
  · intro h
    by_contra hq
    have := textValue_mono p hp (not_lt.mp hq)
    rw [textValue_zero] at this
    linarith
  · intro h
    have := textValue_mono p hp h.le
    rw [textValue_zero] at this
    exact lt_of_le_of_ne this (textValue_ne p hp q h.ne)

/-- What is read is at least as close to the number in the text as every number of the format. -/
theorem read_near (F : Format) (hee : F.emin ≤ F.emax) (hp : 0 < F.prec) (s : Str) (q : ℚ) (hq : Representable F.prec F.emin F.emax q) (hs : 0 ≤ q ↔ 0 ≤ readExact s) :
    |F.read s - readExact s| ≤ |q - readExact s| := by
  have hmax := F.representable_le_max hq
  obtain ⟨m, e, hm, he, -, hqe⟩ := hq
  rw [Format.read]
  generalize readExact s = w at hs ⊢
  -- for magnitudes
  have key : abs (min (F.nearest |w|) F.max - |w|) ≤ abs (|q| - |w|) := by
    by_cases h : F.nearest |w| ≤ F.max
    · rw [min_eq_left h, hqe]
      exact F.nearest_best (abs_nonneg w) m e hm he
    · have hw : F.max < |w| := by
        by_contra hc
        have := F.nearest_mono hp (not_lt.mp hc)
        rw [F.max_representable hee] at this
        exact h this
      rw [min_eq_right (not_le.mp h).le, abs_of_neg (sub_neg.mpr hw), abs_of_neg (sub_neg.mpr (lt_of_le_of_lt hmax hw))]
      linarith
  by_cases hw : w < 0
  · have hq' : q < 0 := by
      by_contra hc
      exact absurd (hs.mp (not_lt.mp hc)) (not_le.mpr hw)
    rw [if_pos hw]
    rw [abs_of_neg hq', abs_of_neg hw] at key
    rw [abs_of_neg hw]
    rw [show -min (F.nearest (-w)) F.max - w = -(min (F.nearest (-w)) F.max - -w) by ring, abs_neg,
      show q - w = -(-q - -w) by ring, abs_neg]
    exact key
  · have hw' := not_lt.mp hw
    have hq' : 0 ≤ q := hs.mpr hw'
    rw [if_neg hw]
    rw [abs_of_nonneg hq', abs_of_nonneg hw'] at key
    rw [abs_of_nonneg hw']
    exact key

/-- What is read is a number of the format. -/
theorem read_representable (F : Format) (hee : F.emin ≤ F.emax) (hp : 0 < F.prec) (s : Str) : Representable F.prec F.emin F.emax (F.read s) := by
  have key : Representable F.prec F.emin F.emax (min (F.nearest |readExact s|) F.max) := by
    by_cases h : F.nearest |readExact s| ≤ F.max
    · rw [min_eq_left h]; exact F.nearest_representable hp hee (abs_nonneg _) h
    · rw [min_eq_right (not_le.mp h).le, ← F.max_representable hee]
      have : F.max ≤ F.nearest |readExact s| := (not_le.mp h).le
      refine F.nearest_representable hp hee ?_ (by rw [F.max_representable hee])
      have h1 : (1 : ℚ) ≤ 2 ^ F.prec := one_le_pow₀ (by norm_num)
      exact mul_nonneg (by linarith) (two_pos _).le
  rw [Format.read]
  split
  · obtain ⟨m, e, h1, h2, h3, h4⟩ := key
    exact ⟨m, e, h1, h2, h3, by rw [abs_neg]; exact h4⟩
  · exact key

theorem read_write (F : Format) (hee : F.emin ≤ F.emax) (hp : 0 < F.prec) (p : Nat) (hpp : 0 < p) (q : ℚ) (hq : Representable F.prec F.emin F.emax q) :
    |F.read (write p (.ofRat q)) - q| ≤ 2 * |textValue p q - q| := by
  have hr := readExact_notation (write_notation' p hpp q)
  have hs : 0 ≤ q ↔ 0 ≤ readExact (write p (.ofRat q)) := by
    rw [hr, ← not_lt, ← not_lt, textValue_sign p hpp q]
  have h := read_near F hee hp _ q hq hs
  rw [hr] at h
  have h2 := abs_sub_le (F.read (write p (.ofRat q))) (textValue p q) q
  rw [abs_sub_comm q] at h
  linarith

theorem read_write_error (F : Format) (hee : F.emin ≤ F.emax) (hp : 0 < F.prec) (p : Nat) (hpp : 0 < p) (q : ℚ) (hq : Representable F.prec F.emin F.emax q) :
    |F.read (write p (.ofRat q)) - q| ≤ 10 ^ (1 - (p : Int)) * |q| := by
  have h1 := read_write F hee hp p hpp q hq
  have h2 := textValue_error p hpp q
  linarith

/-- **C87.** The value read from the text of a float or double is again a float or double, and within 10^-6 or 10^-15 of it. -/
theorem C87_read_back (q : ℚ) :
    (IsFloat q → IsFloat (single.read (floatText (.ofRat q))) ∧ |single.read (floatText (.ofRat q)) - q| ≤ 10 ^ (-6 : Int) * |q|) ∧
    (IsDouble q → IsDouble (double.read (doubleText (.ofRat q))) ∧ |double.read (doubleText (.ofRat q)) - q| ≤ 10 ^ (-15 : Int) * |q|) := by
  refine ⟨fun h => ⟨read_representable single (by decide) (by decide) _, ?_⟩, fun h => ⟨read_representable double (by decide) (by decide) _, ?_⟩⟩
  · have := read_write_error single (by decide) (by decide) 7 (by norm_num) q h
    simpa [floatText] using this
  · have := read_write_error double (by decide) (by decide) 16 (by norm_num) q h
    simpa [doubleText] using this

/-- **C87.** A number that needs no more than 7 (16) decimal digits is read back exactly. -/
theorem C87_exact (q : ℚ) (k j : Int) (h : q = k * 10 ^ j) :
    (IsFloat q → |k| < 10 ^ 7 → single.read (floatText (.ofRat q)) = q) ∧ (IsDouble q → |k| < 10 ^ 16 → double.read (doubleText (.ofRat q)) = q) := by
  have key : ∀ (F : Format) (p : Nat), F.emin ≤ F.emax → 0 < F.prec → 0 < p → Representable F.prec F.emin F.emax q → |k| < 10 ^ p → F.read (write p (.ofRat q)) = q := by
    intro F p h1 h2 h3 h4 h5
    have e : textValue p q = q := by
      by_cases hq : q = 0
      · rw [hq, textValue_zero]
      · exact rounded_multiple (textValue_rounded p h3 q hq) k j h5 h
    have := read_write F h1 h2 p h3 q h4
    rw [e, sub_self, abs_zero, mul_zero] at this
    exact sub_eq_zero.mp (abs_eq_zero.mp (le_antisymm this (abs_nonneg _)))
  exact ⟨key single 7 (by decide) (by decide) (by norm_num), key double 16 (by decide) (by decide) (by norm_num)⟩

/-- **C87, negative.** A double need not be read back as itself: the sum of 0.1 and 0.2 is written as 0.3.  Neither need a float: 2^24 + 2. -/
theorem C87_not_exact : (∃ q, IsDouble q ∧ doubleText (.ofRat q) = b!"0.3" ∧ double.read (doubleText (.ofRat q)) ≠ q) ∧
    (∃ q, IsFloat q ∧ single.read (floatText (.ofRat q)) ≠ q) := by
  refine ⟨⟨1351079888211149 / 2 ^ 52, ⟨1351079888211149, -52, by norm_num, by norm_num, by norm_num, ?_⟩, by decide +kernel, by decide +kernel⟩,
    ⟨2 ^ 24 + 2, ⟨2 ^ 23 + 1, 1, by norm_num, by norm_num, by norm_num, by norm_num⟩, by decide +kernel⟩⟩
  rw [abs_of_pos (by norm_num)]; norm_num

/-! ## C86: what is not a finite number -/

/-- An infinity, not a number, or zero. -/
def NoNumber (v : Fp) : Prop := ∃ b, v = .infinite b ∨ v = .nan b ∨ v = .finite b 0

theorem read_noNumber (v : Fp) (h : NoNumber v) : double.read (doubleText v) = 0 ∧ single.read (floatText v) = 0 := by
  obtain ⟨b, rfl | rfl | rfl⟩ := h <;> cases b <;> decide +kernel

/-- **C86, negative.** In a comparison with tolerance infinities and NaN count as 0: exchanging one for another, or for 0, on either side never changes the result;
in particular each of them passes against each other. -/
theorem C86_as_zero (v : CompareVisitor) (hv : v.getTolerance ≠ 0) (files : Files) (n m : Str) (a a' : Fp) (ha : NoNumber a) (ha' : NoNumber a') (x : Str) :
    ((v.visit ieee files (.data (setDouble { kind := .num .double, name := n } a)) (.data { kind := .num .double, name := m, content := x })).2.2 =
      (v.visit ieee files (.data (setDouble { kind := .num .double, name := n } a')) (.data { kind := .num .double, name := m, content := x })).2.2) ∧
    ((v.visit ieee files (.data { kind := .num .double, name := m, content := x }) (.data (setDouble { kind := .num .double, name := n } a))).2.2 =
      (v.visit ieee files (.data { kind := .num .double, name := m, content := x }) (.data (setDouble { kind := .num .double, name := n } a'))).2.2) ∧
    (v.visit ieee files (.data (setDouble { kind := .num .double, name := n } a)) (.data (setDouble { kind := .num .double, name := m } a'))).2.2 = .ok true := by
  have h1 := (read_noNumber a ha).1
  have h2 := (read_noNumber a' ha').1
  have e1 : ieee.readDouble (doubleText a) = 0 := h1
  have e2 : ieee.readDouble (doubleText a') = 0 := h2
  have hk : ∀ (n : Str) (a : Fp), (setDouble { kind := .num .double, name := n } a).kind = .num .double ∧ (setDouble { kind := .num .double, name := n } a).content = doubleText a := fun _ _ => ⟨rfl, rfl⟩
  simp only [visit_data, (hk _ _).1]
  refine ⟨?_, ?_, ?_⟩
  · rw [compareNumeric_eq v ieee files _ _ .double .double (hk _ _).1 rfl, compareNumeric_eq v ieee files _ _ .double .double (hk _ _).1 rfl, if_pos hv, if_pos hv]
    simp only [isEqualTolerant, (hk _ _).2, e1, e2]
  · rw [compareNumeric_eq v ieee files _ _ .double .double rfl (hk _ _).1, compareNumeric_eq v ieee files _ _ .double .double rfl (hk _ _).1, if_pos hv, if_pos hv]
    simp only [isEqualTolerant, (hk _ _).2, e1, e2]
  · rw [compareNumeric_eq v ieee files _ _ .double .double (hk _ _).1 (hk _ _).1, if_pos hv]
    have hp : (0 : ℚ) < ieee.epsDouble := by show (0 : ℚ) < 1 / 2 ^ 52; norm_num
    simp only [isEqualTolerant, (hk _ _).2, e1, e2, tolerantEqual]
    simp [hp]

/-- **C86, negative.** The same for floats. -/
theorem C86_as_zero_float (v : CompareVisitor) (hv : v.getTolerance ≠ 0) (files : Files) (n m : Str) (a a' : Fp) (ha : NoNumber a) (ha' : NoNumber a') (x : Str) :
    ((v.visit ieee files (.data (setFloat { kind := .num .float, name := n } a)) (.data { kind := .num .float, name := m, content := x })).2.2 =
      (v.visit ieee files (.data (setFloat { kind := .num .float, name := n } a')) (.data { kind := .num .float, name := m, content := x })).2.2) ∧
    ((v.visit ieee files (.data { kind := .num .float, name := m, content := x }) (.data (setFloat { kind := .num .float, name := n } a))).2.2 =
      (v.visit ieee files (.data { kind := .num .float, name := m, content := x }) (.data (setFloat { kind := .num .float, name := n } a'))).2.2) ∧
    (v.visit ieee files (.data (setFloat { kind := .num .float, name := n } a)) (.data (setFloat { kind := .num .float, name := m } a'))).2.2 = .ok true := by
  have h1 := (read_noNumber a ha).2
  have h2 := (read_noNumber a' ha').2
  have e1 : ieee.readSingle (floatText a) = 0 := h1
  have e2 : ieee.readSingle (floatText a') = 0 := h2
  have hk : ∀ (n : Str) (a : Fp), (setFloat { kind := .num .float, name := n } a).kind = .num .float ∧ (setFloat { kind := .num .float, name := n } a).content = floatText a := fun _ _ => ⟨rfl, rfl⟩
  simp only [visit_data, (hk _ _).1]
  refine ⟨?_, ?_, ?_⟩
  · rw [compareNumeric_eq v ieee files _ _ .float .float (hk _ _).1 rfl, compareNumeric_eq v ieee files _ _ .float .float (hk _ _).1 rfl, if_pos hv, if_pos hv]
    simp only [isEqualTolerant, (hk _ _).2, e1, e2]
  · rw [compareNumeric_eq v ieee files _ _ .float .float rfl (hk _ _).1, compareNumeric_eq v ieee files _ _ .float .float rfl (hk _ _).1, if_pos hv, if_pos hv]
    simp only [isEqualTolerant, (hk _ _).2, e1, e2]
  · rw [compareNumeric_eq v ieee files _ _ .float .float (hk _ _).1 (hk _ _).1, if_pos hv]
    have hp : (0 : ℚ) < ieee.epsSingle := by show (0 : ℚ) < 1 / 2 ^ 23; norm_num
    simp only [isEqualTolerant, (hk _ _).2, e1, e2, tolerantEqual]
    simp [hp]

/-- **C84, negative.** A double with a short decimal notation need not be written in that notation: the double that is read from 0.07. -/
theorem C84_short_decimals : doubleText (.ofRat (double.read b!"0.07")) = b!"0.07000000000000001" := by decide +kernel

/-- **C86.** Without tolerance they are told apart, and from every finite number; NaN equals NaN. -/
theorem C86_text : (∀ v, (∃ b, v = Fp.infinite b ∨ v = .nan b) → ∀ q : ℚ, doubleText v ≠ doubleText (.ofRat q) ∧ floatText v ≠ floatText (.ofRat q)) ∧
    doubleText (.infinite false) = b!"inf" ∧ doubleText (.infinite true) = b!"-inf" ∧ (∀ b, doubleText (.nan b) = b!"nan" ∨ doubleText (.nan b) = b!"-nan") ∧
    floatText (.infinite false) = b!"inf" ∧ floatText (.infinite true) = b!"-inf" ∧ (∀ b, floatText (.nan b) = b!"nan" ∨ floatText (.nan b) = b!"-nan") := by
  refine ⟨?_, by decide, by decide, by decide, by decide, by decide, by decide⟩
  have key : ∀ (p : Nat), 0 < p → ∀ v, (∃ b, v = Fp.infinite b ∨ v = .nan b) → ∀ q : ℚ, write p v ≠ write p (.ofRat q) := by
    intro p hp v hv q h
    obtain ⟨neg, ip, fp, es, x, hi, h1, -, -, hs, -⟩ := write_notation' p hp q
    rw [← h] at hs
    -- the first character after the sign is no digit
    obtain ⟨c, r, hcr⟩ := List.exists_cons_of_ne_nil hi
    have hc := h1 c (by simp [hcr])
    have hn45 : c ≠ 45 := by rintro rfl; exact absurd hc (by decide)
    have hn105 : c ≠ 105 := by rintro rfl; exact absurd hc (by decide)
    have hn110 : c ≠ 110 := by rintro rfl; exact absurd hc (by decide)
    obtain ⟨b, rfl | rfl⟩ := hv <;> cases b <;> cases neg <;> simp [write, signText, hcr] at hs
    · exact hn105 hs.1.symm
    · exact hn45 hs.1.symm
    · exact hn105 hs.1.symm
    · exact hn110 hs.1.symm
    · exact hn45 hs.1.symm
    · exact hn110 hs.1.symm
  exact fun v hv q => ⟨key 16 (by norm_num) v hv q, key 7 (by norm_num) v hv q⟩

end Verif.Decimal
