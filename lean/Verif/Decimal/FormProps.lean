import Verif.Decimal.CompareProps
import Verif.Regression.LeftoverProps

/-!
# The text of a number is determined: C84
-/

namespace Verif.Decimal
open Spec Verif.Measurement Verif.Measurement.Spec
open Verif.Regression (horner_bounds horner_inj horner_lower decimal_text_unique)

/-! ## Rounding, ties to even -/

theorem rne_tie (x : ℚ) (j : Int) (h : |(rne x : ℚ) - x| = |(j : ℚ) - x|) : j = rne x ∨ rne x % 2 = 0 := by
  by_contra hc
  rw [not_or] at hc
  obtain ⟨hne, hodd⟩ := hc
  have h1 := Int.floor_le x
  have h2 := Int.lt_floor_add_one x
  have hj : j ≤ rne x - 1 ∨ rne x + 1 ≤ j := by omega
  have hjq : (j : ℚ) ≤ rne x - 1 ∨ (rne x : ℚ) + 1 ≤ j := by
    rcases hj with hj | hj
    · left; exact_mod_cast hj
    · right; exact_mod_cast hj
  have hn := abs_le.mp (rne_near x)
  rw [rne] at hodd
  by_cases c1 : x - ⌊x⌋ < 1 / 2
  · have e : rne x = ⌊x⌋ := by rw [rne, if_pos c1]
    rw [e] at h hjq
    rw [abs_of_nonpos (by linarith)] at h
    rcases hjq with hjq | hjq
    · rw [abs_of_nonpos (by linarith)] at h; linarith
    · rw [abs_of_nonneg (by linarith)] at h; linarith
  · rw [if_neg c1] at hodd
    by_cases c2 : 1 / 2 < x - ⌊x⌋
    · have e : rne x = ⌊x⌋ + 1 := by rw [rne, if_neg c1, if_pos c2]
      rw [e] at h hjq
      push_cast at h hjq
      rw [abs_of_nonneg (by linarith)] at h
      rcases hjq with hjq | hjq
      · rw [abs_of_nonpos (by linarith)] at h; linarith
      · rw [abs_of_nonneg (by linarith)] at h; linarith
    · rw [if_neg c2] at hodd
      split at hodd <;> omega

theorem sigValue_roundedEven (p : Nat) (hp : 0 < p) (q : ℚ) (hq : 0 < q) : RoundedEven p q (sigValue p q) := by
  refine ⟨Int.log 10 q, _, ?_, sigValue_eq p hp q hq, fun j => ?_⟩
  · rw [Leading, abs_of_pos hq]; exact log_spec q hq
  · rw [sigValue_eq p hp q hq]
    have hs : q = q * 10 ^ ((p : Int) - 1 - Int.log 10 q) * 10 ^ (Int.log 10 q + 1 - (p : Int)) := by
      rw [mul_assoc, ← zpow_add₀ (by norm_num)]
      have : (p : Int) - 1 - Int.log 10 q + (Int.log 10 q + 1 - p) = 0 := by omega
      rw [this, zpow_zero, mul_one]
    have hb := rne_best (q * 10 ^ ((p : Int) - 1 - Int.log 10 q)) j
    have ht := rne_tie (q * 10 ^ ((p : Int) - 1 - Int.log 10 q)) j
    have hpos := ten_pos (Int.log 10 q + 1 - p)
    generalize q * 10 ^ ((p : Int) - 1 - Int.log 10 q) = x at hs hb ht ⊢
    generalize (10 : ℚ) ^ (Int.log 10 q + 1 - (p : Int)) = u at hs hpos ⊢
    rw [hs, ← sub_mul, ← sub_mul, abs_mul, abs_mul]
    exact ⟨mul_le_mul_of_nonneg_right hb (abs_nonneg u), fun h => ht (mul_right_cancel₀ (abs_pos.mpr hpos.ne').ne' h)⟩

theorem roundedEven_signed {p : Nat} {q w : ℚ} (b : Bool) (h : RoundedEven p q w) : RoundedEven p (signed b q) (signed b w) := by
  obtain ⟨e, k, h1, hk, h3⟩ := h
  refine ⟨e, if b then -k else k, by rw [Leading, abs_signed]; exact h1, ?_, fun j => ?_⟩
  · rw [hk]; cases b <;> simp [signed]
  · have := h3 (if b then -j else j)
    cases b
    · simpa [signed] using this
    · rw [signed_sub]
      simp only [signed, if_true] at this ⊢
      rw [show (j : ℚ) * 10 ^ (e + 1 - (p : Int)) - -q = -(((-j : Int) : ℚ) * 10 ^ (e + 1 - (p : Int)) - q) by push_cast; ring, abs_neg]
      refine ⟨this.1, fun h => ?_⟩
      rcases this.2 h with h | h
      · left; omega
      · right; omega

theorem textValue_roundedEven (p : Nat) (hp : 0 < p) (q : ℚ) (hq : q ≠ 0) : RoundedEven p q (textValue p q) := by
  have := roundedEven_signed (decide (q < 0)) (sigValue_roundedEven p hp |q| (abs_pos.mpr hq))
  rwa [signed_neg_abs] at this

theorem leading_unique {q : ℚ} {e e' : Int} (h : Leading q e) (h' : Leading q e') : e = e' := by
  have h1 := (zpow_lt_zpow_iff_right₀ (by norm_num : (1 : ℚ) < 10)).mp (lt_of_le_of_lt h.1 h'.2)
  have h2 := (zpow_lt_zpow_iff_right₀ (by norm_num : (1 : ℚ) < 10)).mp (lt_of_le_of_lt h'.1 h.2)
  omega

/-- There is only one such number. -/
theorem roundedEven_unique {p : Nat} {q v w : ℚ} (hv : RoundedEven p q v) (hw : RoundedEven p q w) : v = w := by
  obtain ⟨e, k, he, rfl, hk⟩ := hv
  obtain ⟨e', k', he', rfl, hk'⟩ := hw
  rw [← leading_unique he he'] at hk' ⊢
  have hpos := ten_pos (e + 1 - p)
  generalize (10 : ℚ) ^ (e + 1 - (p : Int)) = u at hk hk' hpos ⊢
  by_cases hkk : k = k'
  · rw [hkk]
  · exfalso
    have heq := le_antisymm (hk k').1 (hk' k).1
    have e1 := (hk k').2 heq
    have e2 := (hk' k).2 heq.symm
    have hne : (k : ℚ) * u - q ≠ k' * u - q := by
      intro h
      have : (k : ℚ) * u = k' * u := by linarith
      exact hkk (by exact_mod_cast mul_right_cancel₀ hpos.ne' this)
    have hmid : (k : ℚ) * u - q = -(k' * u - q) := (abs_eq_abs.mp heq).resolve_left hne
    -- both are even, so the number between them is closer
    have hz : (((k + k') / 2 : Int) : ℚ) * u = q := by
      have h2 : 2 * ((k + k') / 2) = k + k' := by omega
      have h2q : (2 : ℚ) * (((k + k') / 2 : Int) : ℚ) = k + k' := by exact_mod_cast h2
      have : 2 * ((((k + k') / 2 : Int) : ℚ) * u) = 2 * q := by rw [← mul_assoc, h2q]; linarith
      linarith
    have h0 := (hk ((k + k') / 2)).1
    rw [hz, sub_self, abs_zero] at h0
    have h0' := (hk' ((k + k') / 2)).1
    rw [hz, sub_self, abs_zero] at h0'
    have a := abs_eq_zero.mp (le_antisymm h0 (abs_nonneg _))
    have b := abs_eq_zero.mp (le_antisymm h0' (abs_nonneg _))
    exact hne (a.trans b.symm)

/-! ## The form of the text -/

theorem dropZeros_last (s : Str) : (dropZeros s).getLast? ≠ some 48 := by
  induction s with
  | nil => simp [dropZeros]
  | cons c r ih =>
    rw [dropZeros]
    split
    · simp
    · next h =>
      cases hr : dropZeros r with
      | nil =>
        rw [not_and] at h
        simpa using h hr
      | cons d t =>
        rw [hr] at ih
        rw [List.getLast?_cons_cons]
        exact ih

theorem lastDigits_head' (p n : Nat) (hp : 0 < p) (h1 : 10 ^ (p - 1) ≤ n) (h2 : n < 10 ^ p) : (lastDigits p n).head? ≠ some 48 := by
  obtain ⟨a, rfl⟩ : ∃ a, p = a + 1 := ⟨p - 1, by omega⟩
  exact lastDigits_head a n (by simpa using h1) h2

theorem exponent_digits (x : Int) : ∃ ds, exponentText x = (if x < 0 then b!"e-" else b!"e+") ++ ds ∧ Digits ds ∧ 2 ≤ ds.length ∧ (ds.head? = some 48 → ds.length = 2) ∧ horner ds = x.natAbs := by
  refine ⟨if x.natAbs < 100 then lastDigits 2 x.natAbs else natText x.natAbs, ?_, ?_⟩
  · rw [exponentText]
    by_cases hx : x < 0
    · rw [if_pos hx, if_pos hx]; rfl
    · rw [if_neg hx, if_neg hx]; rfl
  · split
    · next h =>
      exact ⟨lastDigits_digits _ _, by rw [lastDigits_length], fun _ => lastDigits_length _ _, by rw [lastDigits_value]; exact Nat.mod_eq_of_lt h⟩
    · next h =>
      obtain ⟨h0, h1, h2, h3⟩ := natText_spec x.natAbs
      have hlen : 2 ≤ (natText x.natAbs).length := by
        by_contra hc
        have := horner_bounds _ h1
        have : (natText x.natAbs).length ≤ 1 := by omega
        have : 10 ^ (natText x.natAbs).length ≤ 10 ^ 1 := Nat.pow_le_pow_right (by norm_num) this
        omega
      refine ⟨h1, hlen, fun hz => ?_, h2⟩
      have := h3 hz
      omega

theorem layout_general (p n : Nat) (x : Int) (neg : Bool) (h1 : 10 ^ (p - 1) ≤ n) (h2 : n < 10 ^ p) (hp : 0 < p) :
    General p (signText neg ++ layout p n x) (signed neg (n * 10 ^ (x + 1 - p))) := by
  have hcond : ((10 : ℚ) ^ (-4 : Int) ≤ |signed neg (n * 10 ^ (x + 1 - p))| ∧ |signed neg (n * 10 ^ (x + 1 - p))| < 10 ^ p) ↔ -4 ≤ x ∧ x < p := by
    rw [abs_signed, abs_of_nonneg (mul_nonneg (Nat.cast_nonneg n) (ten_pos _).le)]
    have b1 : (10 : ℚ) ^ x ≤ n * 10 ^ (x + 1 - p) := by
      have : (10 : ℚ) ^ x = ((10 ^ (p - 1) : Nat) : ℚ) * 10 ^ (x + 1 - p) := by
        push_cast
        rw [← zpow_natCast, ← zpow_add₀ (by norm_num)]
        congr 1; omega
      rw [this]
      exact mul_le_mul_of_nonneg_right (by exact_mod_cast h1) (ten_pos _).le
    have b2 : (n : ℚ) * 10 ^ (x + 1 - p) < 10 ^ (x + 1) := by
      have : (10 : ℚ) ^ (x + 1) = ((10 ^ p : Nat) : ℚ) * 10 ^ (x + 1 - p) := by
        push_cast
        rw [← zpow_natCast, ← zpow_add₀ (by norm_num)]
        congr 1; omega
      rw [this]
      exact mul_lt_mul_of_pos_right (by exact_mod_cast h2) (ten_pos _)
    have hten : (10 : ℚ) ^ p = 10 ^ (p : Int) := (zpow_natCast _ _).symm
    rw [hten]
    constructor
    · rintro ⟨c1, c2⟩
      have d1 := (zpow_lt_zpow_iff_right₀ (by norm_num : (1 : ℚ) < 10)).mp (lt_of_le_of_lt c1 b2)
      have d2 := (zpow_lt_zpow_iff_right₀ (by norm_num : (1 : ℚ) < 10)).mp (lt_of_le_of_lt b1 c2)
      omega
    · rintro ⟨c1, c2⟩
      exact ⟨le_trans (zpow_le_zpow_right₀ (by norm_num) c1) b1, lt_of_lt_of_le b2 (zpow_le_zpow_right₀ (by norm_num) (by omega))⟩
  have hl := lastDigits_length p n
  have hd := lastDigits_digits p n
  have hh := lastDigits_head' p n hp h1 h2
  have hv : horner (lastDigits p n) = n := by rw [lastDigits_value]; exact Nat.mod_eq_of_lt h2
  rw [layout, General]
  simp only [hcond]
  generalize lastDigits p n = ds at hl hd hv hh
  have taken : ∀ i, 0 < i → i ≤ p → ds.take i ≠ [] ∧ (ds.take i).length = i ∧ (ds.take i).head? ≠ some 48 := by
    intro i hi hip
    have : (ds.take i).length = i := by rw [List.length_take, hl]; omega
    refine ⟨fun h => by rw [h] at this; simp at this; omega, this, ?_⟩
    rw [List.head?_take, if_neg (by omega)]
    exact hh
  have value : ∀ (i : Nat) (y : Int), i ≤ p → (n : ℚ) * 10 ^ (y + i - p) = horner (ds.take i ++ dropZeros (ds.drop i)) * 10 ^ (y - (dropZeros (ds.drop i)).length) := by
    intro i y hip
    obtain ⟨k, hk⟩ := dropZeros_spec (ds.drop i)
    have hlen : (dropZeros (ds.drop i)).length + k = p - i := by
      have := congrArg List.length hk
      simp only [List.length_drop, List.length_append, List.length_replicate, hl] at this
      omega
    rw [fraction_value _ _ k n y, hlen]
    · congr 2; omega
    · rw [List.append_assoc, ← hk, List.take_append_drop, hv]
  split
  · next hx =>
    split
    · next hx0 =>
      obtain ⟨t1, t2, t3⟩ := taken (x.toNat + 1) (by omega) (by omega)
      refine ⟨neg, ds.take (x.toNat + 1), dropZeros (ds.drop (x.toNat + 1)), [], 0, t1, fun c hc => hd c (List.mem_of_mem_take hc),
        dropZeros_digits (fun c hc => hd c (List.mem_of_mem_drop hc)), ?_, ?_, dropZeros_last _, fun h => absurd h t3, ?_⟩
      · simp only [signText, fraction, List.append_assoc, List.append_nil]
        split <;> rfl
      · rw [← value _ _ (by omega)]
        congr 3; omega
      · exact ⟨rfl, rfl⟩
    · next hx0 =>
      obtain ⟨k, hk⟩ := dropZeros_spec ds
      have hlen : (dropZeros ds).length + k = p := by
        have := congrArg List.length hk
        simp only [List.length_append, List.length_replicate, hl] at this
        omega
      have hne : dropZeros ds ≠ [] := by
        intro h0
        rw [h0, List.nil_append] at hk
        have : horner ds = 0 := by rw [hk, horner_zeros]
        have : 0 < 10 ^ (p - 1) := Nat.pow_pos (by norm_num)
        omega
      refine ⟨neg, b!"0", List.replicate ((-x).toNat - 1) 48 ++ dropZeros ds, [], 0, by simp, ?_, ?_, ?_, ?_, ?_, fun _ => rfl, ?_⟩
      · intro c hc
        have : c = 48 := by simpa using hc
        subst this; decide
      · intro c hc
        rcases List.mem_append.mp hc with hc | hc
        · rw [(List.mem_replicate.mp hc).2]; decide
        · exact dropZeros_digits hd c hc
      · simp only [signText, fraction, List.append_assoc, List.append_nil]
        split <;> rfl
      · congr 1
        rw [fraction_value _ _ k n 0]
        · congr 2
          simp only [List.length_append, List.length_replicate]
          omega
        · have : b!"0" ++ (List.replicate ((-x).toNat - 1) 48 ++ dropZeros ds) ++ List.replicate k 48 = List.replicate (1 + ((-x).toNat - 1)) 48 ++ ds := by
            rw [List.replicate_add]
            conv => rhs; rw [hk]
            simp only [List.append_assoc]
            rfl
          rw [this, horner_append, horner_zeros, hv]
          omega
      · rw [List.getLast?_append]
        have := dropZeros_last ds
        cases hg : (dropZeros ds).getLast? with
        | none => exact absurd (List.getLast?_eq_none_iff.mp hg) hne
        | some c => rw [hg] at this; simpa using this
      · exact ⟨rfl, rfl⟩
  · next hx =>
    obtain ⟨t1, t2, t3⟩ := taken 1 (by omega) (by omega)
    obtain ⟨es, e1, e2, e3, e4, e5⟩ := exponent_digits x
    refine ⟨neg, ds.take 1, dropZeros (ds.drop 1), exponentText x, x, t1, fun c hc => hd c (List.mem_of_mem_take hc),
        dropZeros_digits (fun c hc => hd c (List.mem_of_mem_drop hc)), ?_, ?_, dropZeros_last _, fun h => absurd h t3, ?_⟩
    · simp only [signText, fraction, List.append_assoc]
      split <;> rfl
    · rw [← value 1 x (by omega)]
      congr 3
    · exact ⟨t2, t3, es, e2, e3, e4, e5, e1⟩

theorem write_general (p : Nat) (hp : 0 < p) (q : ℚ) (hq : q ≠ 0) : General p (write p (Fp.ofRat q)) (textValue p q) := by
  obtain ⟨h1, h2⟩ := sig_bounds p hp |q| (abs_pos.mpr hq)
  rw [write_ne p q hq]
  exact layout_general p _ _ _ h1 h2 hp

/-! ## The form determines the text -/

theorem fp_unique {fp fp' : Str} (h : Digits fp) (h' : Digits fp') (hl : fp.getLast? ≠ some 48) (hl' : fp'.getLast? ≠ some 48)
    (hv : horner fp * 10 ^ fp'.length = horner fp' * 10 ^ fp.length) : fp = fp' := by
  have key : ∀ (fp fp' : Str), Digits fp → Digits fp' → fp'.getLast? ≠ some 48 → horner fp * 10 ^ fp'.length = horner fp' * 10 ^ fp.length → fp.length ≤ fp'.length → fp = fp' := by
    intro fp fp' h h' hl' hv hle
    obtain ⟨d, hd⟩ : ∃ d, fp'.length = fp.length + d := ⟨fp'.length - fp.length, by omega⟩
    have hv' : horner fp * 10 ^ d = horner fp' := by
      rw [hd, Nat.pow_add, Nat.mul_comm (10 ^ fp.length), ← Nat.mul_assoc] at hv
      exact Nat.eq_of_mul_eq_mul_right (Nat.pow_pos (by norm_num)) hv
    have e : fp ++ List.replicate d 48 = fp' := by
      refine horner_inj _ _ ?_ h' (by simp [hd]) (by rw [horner_append, horner_zeros, List.length_replicate, Nat.add_zero, hv'])
      intro c hc
      rcases List.mem_append.mp hc with hc | hc
      · exact h c hc
      · rw [(List.mem_replicate.mp hc).2]; decide
    cases d with
    | zero => simpa using e
    | succ d =>
      exfalso
      apply hl'
      rw [← e, List.replicate_succ', ← List.append_assoc, List.getLast?_append]
      rfl
  rcases Nat.le_total fp.length fp'.length with hle | hle
  · exact key fp fp' h h' hl' hv hle
  · exact (key fp' fp h' h hl hv.symm hle).symm

/-- The parts of the digits are determined by the value. -/
theorem parts_unique {ip fp ip' fp' : Str} (h0 : ip ≠ []) (h0' : ip' ≠ []) (hi : Digits ip) (hi' : Digits ip') (hf : Digits fp) (hf' : Digits fp')
    (hz : ip.head? = some 48 → ip.length = 1) (hz' : ip'.head? = some 48 → ip'.length = 1) (hl : fp.getLast? ≠ some 48) (hl' : fp'.getLast? ≠ some 48)
    (hv : horner (ip ++ fp) * 10 ^ fp'.length = horner (ip' ++ fp') * 10 ^ fp.length) : ip = ip' ∧ fp = fp' := by
  rw [horner_append, horner_append] at hv
  have b1 := horner_bounds fp hf
  have b2 := horner_bounds fp' hf'
  have p1 : 0 < 10 ^ fp.length := Nat.pow_pos (by norm_num)
  have p2 : 0 < 10 ^ fp'.length := Nat.pow_pos (by norm_num)
  generalize hA : 10 ^ fp.length = A at *
  generalize hB : 10 ^ fp'.length = B at *
  have hiv : horner ip = horner ip' := by
    have c1 : horner fp * B < A * B := Nat.mul_lt_mul_of_pos_right b1 p2
    have c2 : horner fp' * A < A * B := by rw [Nat.mul_comm A B]; exact Nat.mul_lt_mul_of_pos_right b2 p1
    have e : horner ip * (A * B) + horner fp * B = horner ip' * (A * B) + horner fp' * A := by
      have : (horner ip * A + horner fp) * B = horner ip * (A * B) + horner fp * B := by ring
      have : (horner ip' * B + horner fp') * A = horner ip' * (A * B) + horner fp' * A := by ring
      omega
    have pos : 0 < A * B := Nat.mul_pos p1 p2
    have := congrArg (· / (A * B)) e
    rw [Nat.mul_comm (horner ip), Nat.mul_comm (horner ip')] at this
    simp only [Nat.mul_add_div pos, Nat.div_eq_of_lt c1, Nat.div_eq_of_lt c2, Nat.add_zero] at this
    exact this
  have hip : ip = ip' := by
    have a : IsDecimal (horner ip : Nat) ip := ⟨ip, by rw [if_neg (by omega)]; rfl, h0, hi, by simp, hz⟩
    have b : IsDecimal (horner ip : Nat) ip' := ⟨ip', by rw [if_neg (by omega)]; rfl, h0', hi', by simp [hiv], hz'⟩
    exact decimal_text_unique a b
  refine ⟨hip, fp_unique hf hf' hl hl' ?_⟩
  rw [hA, hB]
  rw [hiv, Nat.add_mul, Nat.add_mul, Nat.mul_assoc, Nat.mul_assoc, Nat.mul_comm B A] at hv
  omega

theorem exponent_unique {ds ds' : Str} (h : Digits ds) (h' : Digits ds') (hl : 2 ≤ ds.length) (hl' : 2 ≤ ds'.length)
    (hz : ds.head? = some 48 → ds.length = 2) (hz' : ds'.head? = some 48 → ds'.length = 2) (hv : horner ds = horner ds') : ds = ds' := by
  refine horner_inj ds ds' h h' ?_ hv
  have key : ∀ (ds es : Str), 2 ≤ ds.length → Digits ds → Digits es → (es.head? = some 48 → es.length = 2) → horner ds = horner es → es.length ≤ ds.length := by
    intro ds es h0 hd gd gz hh
    cases es with
    | nil => simp
    | cons c r =>
      by_cases hc : c = 48
      · have := gz (by simp [hc])
        omega
      · have h1 := horner_lower c r gd hc
        have h2 := horner_bounds ds hd
        have : 10 ^ r.length < 10 ^ ds.length := by omega
        have := (Nat.pow_lt_pow_iff_right (by decide : 1 < 10)).mp this
        simp only [List.length_cons]; omega
  have a := key ds ds' hl h h' hz' hv
  have b := key ds' ds hl' h' h hz hv.symm
  omega

theorem general_unique {p : Nat} {s s' : Str} {w : ℚ} (h : General p s w) (h' : General p s' w) (hw : w ≠ 0) : s = s' := by
  obtain ⟨neg, ip, fp, es, x, h0, hi, hf, rfl, hv, hl, hz, hc⟩ := h
  obtain ⟨neg', ip', fp', es', x', h0', hi', hf', rfl, hv', hl', hz', hc'⟩ := h'
  have pos : ∀ (ip fp : Str) (x : Int), (0 : ℚ) ≤ horner (ip ++ fp) * 10 ^ (x - fp.length) := fun ip fp x => mul_nonneg (Nat.cast_nonneg _) (ten_pos _).le
  have hneg : neg = neg' := by
    have a := pos ip fp x
    have b := pos ip' fp' x'
    cases neg <;> cases neg' <;> simp only [signed, if_true, if_false, Bool.false_eq_true] at hv hv'
    · rfl
    · exact absurd (by linarith) hw
    · exact absurd (by linarith) hw
    · rfl
  have habs : |w| = horner (ip ++ fp) * 10 ^ (x - fp.length) := by rw [hv, abs_signed, abs_of_nonneg (pos _ _ _)]
  have habs' : |w| = horner (ip' ++ fp') * 10 ^ (x' - fp'.length) := by rw [hv', abs_signed, abs_of_nonneg (pos _ _ _)]
  -- the exponents are the same
  have hx : x = x' ∧ es = es' := by
    split at hc
    · next hcond =>
      rw [if_pos hcond] at hc'
      exact ⟨by rw [hc.2, hc'.2], by rw [hc.1, hc'.1]⟩
    · next hcond =>
      rw [if_neg hcond] at hc'
      obtain ⟨a1, a2, ds, a3, a4, a5, a6, a7⟩ := hc
      obtain ⟨b1, b2, ds', b3, b4, b5, b6, b7⟩ := hc'
      have lead : ∀ (ip fp : Str) (x : Int), ip.length = 1 → ip.head? ≠ some 48 → Digits ip → Digits fp → |w| = horner (ip ++ fp) * 10 ^ (x - fp.length) → Leading w x := by
        intro ip fp x a1 a2 hi hf habs
        obtain ⟨c, rfl⟩ := List.length_eq_one_iff.mp a1
        have hd : Digits ([c] ++ fp) := by
          intro y hy
          rcases List.mem_append.mp hy with hy | hy
          · exact hi y hy
          · exact hf y hy
        have l1 := horner_lower c fp hd (by simpa using a2)
        have l2 := horner_bounds _ hd
        simp only [List.singleton_append, List.length_cons] at l1 l2 habs
        have e : ∀ m : Nat, (10 : ℚ) ^ (x + m) = ((10 ^ (fp.length + m) : Nat) : ℚ) * 10 ^ (x - fp.length) := by
          intro m
          push_cast
          rw [← zpow_natCast, ← zpow_add₀ (by norm_num)]
          congr 1; push_cast; omega
        rw [Leading, habs]
        have e0 := e 0
        have e1 := e 1
        simp only [Nat.cast_zero, add_zero, Nat.cast_one] at e0 e1
        rw [e0, e1]
        exact ⟨mul_le_mul_of_nonneg_right (by exact_mod_cast l1) (ten_pos _).le, mul_lt_mul_of_pos_right (by exact_mod_cast l2) (ten_pos _)⟩
      have hxx := leading_unique (lead ip fp x a1 a2 hi hf habs) (lead ip' fp' x' b1 b2 hi' hf' habs')
      refine ⟨hxx, ?_⟩
      rw [a7, b7, hxx, exponent_unique a3 b3 a4 b4 a5 b5 (by rw [a6, b6, hxx])]
  obtain ⟨rfl, rfl⟩ := hx
  have hval : horner (ip ++ fp) * 10 ^ fp'.length = horner (ip' ++ fp') * 10 ^ fp.length := by
    have e := habs.symm.trans habs'
    have f : ∀ n : Nat, (10 : ℚ) ^ (x - n) = 10 ^ x / 10 ^ n := by
      intro n
      rw [zpow_sub₀ (by norm_num), zpow_natCast]
    rw [f, f, mul_div_assoc', mul_div_assoc', div_eq_div_iff (by positivity) (by positivity)] at e
    have e' : (10 : ℚ) ^ x * ((horner (ip ++ fp) : ℚ) * 10 ^ fp'.length) = 10 ^ x * ((horner (ip' ++ fp') : ℚ) * 10 ^ fp.length) := by linarith
    have := mul_left_cancel₀ (ten_pos x).ne' e'
    exact_mod_cast this
  obtain ⟨rfl, rfl⟩ := parts_unique h0 h0' hi hi' hf hf' hz hz' hl hl' hval
  rw [hneg]

/-- **C84.** The text of a float (double) is determined: it is the one text that has the general form for 7 (16) digits of the number rounded to 7 (16)
significant digits, ties to even. -/
theorem C84_determined (q : ℚ) (hq : q ≠ 0) (s : Str) :
    (s = floatText (.ofRat q) ↔ ∃ w, General 7 s w ∧ RoundedEven 7 q w) ∧ (s = doubleText (.ofRat q) ↔ ∃ w, General 16 s w ∧ RoundedEven 16 q w) := by
  have key : ∀ p, 0 < p → (s = write p (.ofRat q) ↔ ∃ w, General p s w ∧ RoundedEven p q w) := by
    intro p hp
    have h1 := write_general p hp q hq
    have h2 := textValue_roundedEven p hp q hq
    refine ⟨fun h => ⟨_, by rw [h]; exact h1, h2⟩, ?_⟩
    rintro ⟨w, g1, g2⟩
    rw [roundedEven_unique g2 h2] at g1
    exact general_unique g1 h1 (textValue_ne p hp q hq)
  exact ⟨key 7 (by norm_num), key 16 (by norm_num)⟩

/-- **C84.** Zero is written `0`, negative zero `-0`. -/
theorem C84_zero : floatText (.ofRat 0) = b!"0" ∧ doubleText (.ofRat 0) = b!"0" ∧ floatText (.finite true 0) = b!"-0" ∧ doubleText (.finite true 0) = b!"-0" := by
  decide +kernel

/-- A tie, at 16 digits, is written with an even last digit; a number below 10^-4 gets an exponent. -/
example : doubleText (.ofRat (2251799813685248 + 5 / 4)) = b!"2251799813685249" ∧ doubleText (.ofRat (1125899906842624 + 1 / 2)) = b!"1125899906842624" ∧
    doubleText (.ofRat (1125899906842625 + 1 / 2)) = b!"1125899906842626" ∧ floatText (.ofRat (1 / 16384)) = b!"6.103516e-05" ∧ floatText (.ofRat (1 / 8192)) = b!"0.0001220703" := by
  decide +kernel

end Verif.Decimal
