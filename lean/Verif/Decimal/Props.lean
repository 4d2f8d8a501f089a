import Verif.Decimal.ReadLemmas
import Verif.Decimal.FormatLemmas
import Verif.Measurement.CompareProps

namespace Verif.Decimal
open Spec Verif.Measurement Verif.Measurement.Spec

/-! ## The text of a number -/

theorem signed_neg_abs (q : ℚ) : signed (decide (q < 0)) |q| = q := by
  rw [signed]
  by_cases h : q < 0
  · simp [h, abs_of_neg h]
  · simp [h, abs_of_nonneg (not_lt.mp h)]

theorem abs_signed (b : Bool) (q : ℚ) : |signed b q| = |q| := by cases b <;> simp [signed]

theorem signed_sub (b : Bool) (p q : ℚ) : |signed b p - signed b q| = |p - q| := by
  cases b
  · rfl
  · simp only [signed, if_true]
    rw [show -p - -q = -(p - q) by ring, abs_neg]

theorem rounded_signed {p : Nat} {q w : ℚ} (b : Bool) (h : Rounded p q w) : Rounded p (signed b q) (signed b w) := by
  obtain ⟨e, h1, ⟨k, hk⟩, h3⟩ := h
  refine ⟨e, by rw [Leading, abs_signed]; exact h1, ⟨if b then -k else k, ?_⟩, fun j => ?_⟩
  · rw [hk]; cases b <;> simp [signed]
  · have := h3 (if b then -j else j)
    cases b
    · simpa [signed] using this
    · rw [signed_sub]
      simp only [signed, if_true] at this ⊢
      rw [show (j : ℚ) * 10 ^ (e + 1 - (p : Int)) - -q = -(((-j : Int) : ℚ) * 10 ^ (e + 1 - (p : Int)) - q) by push_cast; ring, abs_neg]
      exact this

/-- The value the text of a number stands for. -/
def textValue (p : Nat) (q : ℚ) : ℚ := signed (decide (q < 0)) (sigValue p |q|)

theorem write_ne (p : Nat) (q : ℚ) (hq : q ≠ 0) : write p (Fp.ofRat q) =
    signText (decide (q < 0)) ++ layout p (significant p |q|).1 (significant p |q|).2 := by
  rw [Fp.ofRat, write, if_neg (abs_ne_zero.mpr hq)]

theorem write_notation (p : Nat) (hp : 0 < p) (q : ℚ) (hq : q ≠ 0) : Notation (write p (Fp.ofRat q)) (textValue p q) := by
  obtain ⟨h1, h2⟩ := sig_bounds p hp |q| (abs_pos.mpr hq)
  rw [write_ne p q hq]
  exact layout_notation p _ _ _ h1 h2 hp

theorem textValue_rounded (p : Nat) (hp : 0 < p) (q : ℚ) (hq : q ≠ 0) : Rounded p q (textValue p q) := by
  have := rounded_signed (decide (q < 0)) (sigValue_rounded p hp |q| (abs_pos.mpr hq))
  rwa [signed_neg_abs] at this

/-- **C84.** The text of a float is the number rounded to 7 significant digits, in decimal notation; the text of a double the number rounded to 16 significant digits. -/
theorem C84_text (q : ℚ) (hq : q ≠ 0) :
    (∃ w, Notation (floatText (.ofRat q)) w ∧ Rounded 7 q w) ∧ (∃ w, Notation (doubleText (.ofRat q)) w ∧ Rounded 16 q w) :=
  ⟨⟨_, write_notation 7 (by norm_num) q hq, textValue_rounded 7 (by norm_num) q hq⟩,
    ⟨_, write_notation 16 (by norm_num) q hq, textValue_rounded 16 (by norm_num) q hq⟩⟩

/-- The notation of a text is unique. -/
theorem notation_unique {s : Str} {v w : ℚ} (hv : Notation s v) (hw : Notation s w) : v = w := by
  rw [← readExact_notation hv, readExact_notation hw]

theorem rounded_multiple {p : Nat} {q w : ℚ} (h : Rounded p q w) (k : Int) (j : Int) (hk : |k| < 10 ^ p) (hq : q = k * 10 ^ j) : w = q := by
  obtain ⟨e, ⟨h1, h2⟩, -, h3⟩ := h
  have hlt : e + 1 - p ≤ j := by
    have hk' : |(k : ℚ)| < 10 ^ (p : Int) := by rw [zpow_natCast, ← Int.cast_abs]; exact_mod_cast hk
    have : (10 : ℚ) ^ e < 10 ^ ((p : Int) + j) := by
      rw [zpow_add₀ (by norm_num)]
      refine lt_of_le_of_lt h1 ?_
      rw [hq, abs_mul, abs_of_pos (ten_pos j)]
      exact mul_lt_mul_of_pos_right hk' (ten_pos j)
    have := (zpow_lt_zpow_iff_right₀ (by norm_num : (1 : ℚ) < 10)).mp this
    omega
  have h := h3 (k * 10 ^ (j - (e + 1 - p)).toNat)
  have e1 : ((k * 10 ^ (j - (e + 1 - p)).toNat : Int) : ℚ) * 10 ^ (e + 1 - (p : Int)) = q := by
    push_cast
    rw [hq, mul_assoc, ← zpow_natCast, ← zpow_add₀ (by norm_num)]
    congr 2
    omega
  rw [e1, sub_self, abs_zero] at h
  exact sub_eq_zero.mp (abs_eq_zero.mp (le_antisymm h (abs_nonneg _)))

/-- **C84.** A number that needs no more digits than are written is written exactly. -/
theorem C84_exact (q : ℚ) (hq : q ≠ 0) (k j : Int) (h : q = k * 10 ^ j) :
    (|k| < 10 ^ 7 → Notation (floatText (.ofRat q)) q) ∧ (|k| < 10 ^ 16 → Notation (doubleText (.ofRat q)) q) := by
  obtain ⟨⟨w, h1, h2⟩, ⟨w', h1', h2'⟩⟩ := C84_text q hq
  refine ⟨fun hk => ?_, fun hk => ?_⟩
  · rwa [rounded_multiple h2 k j hk h] at h1
  · rwa [rounded_multiple h2' k j hk h] at h1'

/-! ## Integers -/

theorem lastDigits_shift (a k n : Nat) : lastDigits (a + k) (n * 10 ^ k) = lastDigits a n ++ List.replicate k 48 := by
  induction k generalizing n with
  | zero => simp
  | succ k ih =>
    rw [← Nat.add_assoc, lastDigits]
    have h1 : n * 10 ^ (k + 1) / 10 = n * 10 ^ k := by rw [Nat.pow_succ, ← Nat.mul_assoc, Nat.mul_div_cancel _ (by norm_num)]
    have h2 : n * 10 ^ (k + 1) % 10 = 0 := by rw [Nat.pow_succ, ← Nat.mul_assoc, Nat.mul_mod_left]
    rw [h1, h2, ih, List.append_assoc, List.replicate_succ' ]
    rfl

theorem lastDigits_head (a n : Nat) (h1 : 10 ^ a ≤ n) (h2 : n < 10 ^ (a + 1)) : (lastDigits (a + 1) n).head? ≠ some 48 := by
  induction a generalizing n with
  | zero =>
    have : ∀ n : Fin 10, 1 ≤ n.val → (lastDigits 1 n.val).head? ≠ some 48 := by decide
    exact this ⟨n, by simpa using h2⟩ (by simpa using h1)
  | succ a ih =>
    rw [lastDigits, List.head?_append]
    have h1' : 10 ^ a ≤ n / 10 := by rw [Nat.le_div_iff_mul_le (by norm_num), ← Nat.pow_succ]; exact h1
    have h2' : n / 10 < 10 ^ (a + 1) := by rw [Nat.div_lt_iff_lt_mul (by norm_num), ← Nat.pow_succ]; exact h2
    have := ih (n / 10) h1' h2'
    cases hh : (lastDigits (a + 1) (n / 10)).head? with
    | none =>
      have hl := lastDigits_length (a + 1) (n / 10)
      rw [List.head?_eq_none_iff] at hh
      rw [hh] at hl; simp at hl
    | some c => rw [hh] at this; simpa using this

theorem dropZeros_zeros (k : Nat) : dropZeros (List.replicate k 48) = [] := by
  induction k with
  | zero => rfl
  | succ k ih => simp [List.replicate_succ, dropZeros, ih]

/-- An integer of at most `p` digits is written as usual. -/
theorem write_integer (p : Nat) (hp : 0 < p) (n : Int) (hn : |n| < 10 ^ p) : IsDecimal n (write p (Fp.ofRat n)) := by
  by_cases h0 : n = 0
  · subst h0
    have : write p (Fp.ofRat ((0 : Int) : ℚ)) = b!"0" := by simp [Fp.ofRat, write, signText]
    rw [this]
    exact ⟨b!"0", by simp, by simp, by decide, by decide, by simp⟩
  · have hq : (n : ℚ) ≠ 0 := by exact_mod_cast h0
    have habs : |(n : ℚ)| = (n.natAbs : ℚ) := by rw [← Int.cast_abs, Int.abs_eq_natAbs, Int.cast_natCast]
    have hpos : 0 < n.natAbs := Int.natAbs_pos.mpr h0
    have hlt : n.natAbs < 10 ^ p := by
      rw [Int.abs_eq_natAbs] at hn; exact_mod_cast hn
    -- the exponent is the number of digits less one
    obtain ⟨a, ha⟩ : ∃ a, a = Nat.log 10 n.natAbs := ⟨_, rfl⟩
    have ha1 : 10 ^ a ≤ n.natAbs := by rw [ha]; exact Nat.pow_log_le_self 10 (by omega)
    have ha2 : n.natAbs < 10 ^ (a + 1) := by rw [ha]; exact Nat.lt_pow_succ_log_self (by norm_num) _
    have hap : a < p := by
      by_contra hc
      have : 10 ^ p ≤ 10 ^ a := Nat.pow_le_pow_right (by norm_num) (by omega)
      omega
    have hsig : significant p (n.natAbs : ℚ) = (n.natAbs * 10 ^ (p - 1 - a), (a : Int)) := by
      obtain ⟨s1, s2⟩ := sig_bounds p hp (n.natAbs : ℚ) (by exact_mod_cast hpos)
      have hval : sigValue p (n.natAbs : ℚ) = n.natAbs :=
        rounded_multiple (sigValue_rounded p hp _ (by exact_mod_cast hpos)) n.natAbs 0 (by rw [abs_of_nonneg (by positivity)]; exact_mod_cast hlt) (by norm_num)
      have e1 : (n.natAbs : ℚ) = ((n.natAbs * 10 ^ (p - 1 - a) : Nat) : ℚ) * 10 ^ ((a : Int) + 1 - p) := by
        push_cast
        rw [mul_assoc, ← zpow_natCast, ← zpow_add₀ (by norm_num)]
        have : ((p - 1 - a : Nat) : Int) + ((a : Int) + 1 - p) = 0 := by omega
        rw [this, zpow_zero, mul_one]
      have b1 : 10 ^ (p - 1) ≤ n.natAbs * 10 ^ (p - 1 - a) := by
        calc 10 ^ (p - 1) = 10 ^ a * 10 ^ (p - 1 - a) := by rw [← Nat.pow_add]; congr 1; omega
          _ ≤ _ := Nat.mul_le_mul_right _ ha1
      have b2 : n.natAbs * 10 ^ (p - 1 - a) < 10 ^ p := by
        calc _ < 10 ^ (a + 1) * 10 ^ (p - 1 - a) := Nat.mul_lt_mul_of_pos_right ha2 (Nat.pow_pos (by norm_num))
          _ = 10 ^ p := by rw [← Nat.pow_add]; congr 1; omega
      have := sig_inj p _ _ _ _ s1 s2 b1 b2 hp (by rw [← e1]; exact hval)
      exact Prod.ext this.1 this.2
    have hlay : layout p (n.natAbs * 10 ^ (p - 1 - a)) (a : Int) = lastDigits (a + 1) n.natAbs := by
      rw [layout]
      have e2 : lastDigits p (n.natAbs * 10 ^ (p - 1 - a)) = lastDigits (a + 1) n.natAbs ++ List.replicate (p - 1 - a) 48 := by
        rw [← lastDigits_shift]; congr 1; omega
      have hl := lastDigits_length (a + 1) n.natAbs
      rw [if_pos (by omega), if_pos (by omega), e2, Int.toNat_natCast]
      rw [List.take_append_of_le_length (by omega), List.drop_append_of_le_length (by omega)]
      rw [List.take_of_length_le (by omega), List.drop_of_length_le (by omega), List.nil_append, dropZeros_zeros]
      simp [fraction]
    refine ⟨lastDigits (a + 1) n.natAbs, ?_, ?_, lastDigits_digits _ _, ?_, ?_⟩
    · rw [write_ne p _ hq, habs, hsig, hlay, signText]
      by_cases hneg : n < 0
      · have : ((n : ℚ) < 0) := by exact_mod_cast hneg
        simp [hneg]
      · have : ¬ ((n : ℚ) < 0) := by exact_mod_cast hneg
        simp [hneg]
    · intro h
      have := lastDigits_length (a + 1) n.natAbs
      rw [h] at this; simp at this
    · rw [lastDigits_value]; exact Nat.mod_eq_of_lt ha2
    · intro h; exact absurd h (lastDigits_head a _ ha1 ha2)

/-- **C84.** An integer of at most 7 digits in a float, or at most 16 in a double, has the text an integer measurement would have: its decimal notation. -/
theorem C84_integers (n : Int) :
    (|n| < 10 ^ 7 → IsDecimal n (floatText (.ofRat n))) ∧ (|n| < 10 ^ 16 → IsDecimal n (doubleText (.ofRat n))) :=
  ⟨write_integer 7 (by norm_num) n, write_integer 16 (by norm_num) n⟩

/-- Some texts: a number that is no decimal fraction, one in scientific notation, and one that is rounded up to a power of ten. -/
example : doubleText (.ofRat (3602879701896397 / 36028797018963968)) = b!"0.1" ∧ floatText (.ofRat (-16777216)) = b!"-1.677722e+07" ∧
    floatText (.ofRat (99999999 / 100)) = b!"1000000" ∧ doubleText (.ofRat (1 / 2 ^ 20)) = b!"9.5367431640625e-07" ∧ doubleText (.finite true 0) = b!"-0" := by
  decide +kernel

end Verif.Decimal
