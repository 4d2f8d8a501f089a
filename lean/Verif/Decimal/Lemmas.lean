import Verif.Decimal.Model
import Verif.Decimal.Spec
import Verif.Measurement.Props
import Mathlib.Tactic.Linarith
import Mathlib.Tactic.Positivity
import Mathlib.Tactic.FieldSimp
import Mathlib.Tactic.Ring

namespace Verif.Decimal
open Spec Verif.Measurement Verif.Measurement.Spec

/-! ## Rounding to an integer -/

theorem rne_near (x : ℚ) : |(rne x : ℚ) - x| ≤ 1 / 2 := by
  have h1 := Int.floor_le x
  have h2 := Int.lt_floor_add_one x
  rw [rne, abs_le]
  split_ifs <;> push_cast <;> constructor <;> linarith

theorem rne_mono {x y : ℚ} (h : x ≤ y) : rne x ≤ rne y := by
  have hf := Int.floor_mono h
  have h1 := Int.floor_le x
  have h2 := Int.lt_floor_add_one x
  have h3 := Int.floor_le y
  have h4 := Int.lt_floor_add_one y
  rcases hf.lt_or_eq with hlt | heq
  · have : rne x ≤ ⌊x⌋ + 1 := by rw [rne]; split_ifs <;> omega
    have : ⌊y⌋ ≤ rne y := by rw [rne]; split_ifs <;> omega
    omega
  · rw [rne, rne, ← heq]
    have hc : (⌊x⌋ : ℚ) = ⌊y⌋ := by rw [heq]
    split_ifs <;> first | omega | (exfalso; linarith)

theorem rne_int (n : Int) : rne (n : ℚ) = n := by
  rw [rne]; simp

theorem rne_ge {n : Int} {x : ℚ} (h : (n : ℚ) ≤ x) : n ≤ rne x := by
  have := rne_mono h; rwa [rne_int] at this

theorem rne_le {n : Int} {x : ℚ} (h : x ≤ (n : ℚ)) : rne x ≤ n := by
  have := rne_mono h; rwa [rne_int] at this

/-- No integer is closer. -/
theorem rne_best (x : ℚ) (j : Int) : |(rne x : ℚ) - x| ≤ |(j : ℚ) - x| := by
  rcases eq_or_ne j (rne x) with rfl | hne
  · exact le_rfl
  · have h := rne_near x
    have h1 : (1 : ℚ) ≤ |(j : ℚ) - rne x| := by
      rw [← Int.cast_sub, ← Int.cast_abs]
      exact_mod_cast Int.one_le_abs (sub_ne_zero.mpr hne)
    have h2 : |(j : ℚ) - rne x| ≤ |(j : ℚ) - x| + |(rne x : ℚ) - x| := by
      have := abs_sub_le (j : ℚ) x (rne x)
      rwa [abs_sub_comm x] at this
    linarith

/-! ## Significant digits -/

theorem ten_pos (e : Int) : (0 : ℚ) < 10 ^ e := zpow_pos (by norm_num) e

theorem log_spec (q : ℚ) (hq : 0 < q) : (10 : ℚ) ^ Int.log 10 q ≤ q ∧ q < 10 ^ (Int.log 10 q + 1) := by
  have h1 := Int.zpow_log_le_self (b := 10) (r := q) (by norm_num) hq
  have h2 := Int.lt_zpow_succ_log_self (b := 10) (by norm_num) q
  exact ⟨by exact_mod_cast h1, by exact_mod_cast h2⟩

/-- The scaled number lies between the smallest and beyond the largest number of `p` digits. -/
theorem scaled_bounds (p : Nat) (hp : 0 < p) (q : ℚ) (hq : 0 < q) :
    ((10 ^ (p - 1) : Nat) : ℚ) ≤ q * 10 ^ ((p : Int) - 1 - Int.log 10 q) ∧ q * 10 ^ ((p : Int) - 1 - Int.log 10 q) ≤ ((10 ^ p : Nat) : ℚ) := by
  obtain ⟨h1, h2⟩ := log_spec q hq
  have hpos := ten_pos ((p : Int) - 1 - Int.log 10 q)
  have e1 : ((10 ^ (p - 1) : Nat) : ℚ) = 10 ^ Int.log 10 q * 10 ^ ((p : Int) - 1 - Int.log 10 q) := by
    rw [← zpow_add₀ (by norm_num)]
    push_cast
    rw [← zpow_natCast]
    congr 1
    omega
  have e2 : ((10 ^ p : Nat) : ℚ) = 10 ^ (Int.log 10 q + 1) * 10 ^ ((p : Int) - 1 - Int.log 10 q) := by
    rw [← zpow_add₀ (by norm_num)]
    push_cast
    rw [← zpow_natCast]
    congr 1
    omega
  rw [e1, e2]
  exact ⟨mul_le_mul_of_nonneg_right h1 hpos.le, mul_le_mul_of_nonneg_right h2.le hpos.le⟩

/-- The value of the significant digits. -/
def sigValue (p : Nat) (q : ℚ) : ℚ := (significant p q).1 * 10 ^ ((significant p q).2 + 1 - p)

theorem sig_rne (p : Nat) (hp : 0 < p) (q : ℚ) (hq : 0 < q) :
    10 ^ (p - 1) ≤ rne (q * 10 ^ ((p : Int) - 1 - Int.log 10 q)) ∧ rne (q * 10 ^ ((p : Int) - 1 - Int.log 10 q)) ≤ 10 ^ p := by
  obtain ⟨h1, h2⟩ := scaled_bounds p hp q hq
  exact ⟨rne_ge (by push_cast at h1 ⊢; exact h1), rne_le (by push_cast at h2 ⊢; exact h2)⟩

/-- There are exactly `p` digits. -/
theorem sig_bounds (p : Nat) (hp : 0 < p) (q : ℚ) (hq : 0 < q) :
    10 ^ (p - 1) ≤ (significant p q).1 ∧ (significant p q).1 < 10 ^ p := by
  obtain ⟨h1, h2⟩ := sig_rne p hp q hq
  have h3 : (10 : Nat) ^ (p - 1) < 10 ^ p := Nat.pow_lt_pow_right (by norm_num) (by omega)
  rw [significant]
  generalize rne (q * 10 ^ ((p : Int) - 1 - Int.log 10 q)) = n at h1 h2 ⊢
  have h1' : ((10 ^ (p - 1) : Nat) : Int) ≤ n := by push_cast; exact h1
  have h2' : n ≤ ((10 ^ p : Nat) : Int) := by push_cast; exact h2
  split
  · exact ⟨le_rfl, h3⟩
  · next h => exact ⟨(Int.le_toNat (le_trans (by positivity) h1')).mpr h1', lt_of_le_of_ne (Int.toNat_le.mpr h2') h⟩

/-- The value is the rounded scaled number, scaled back. -/
theorem sigValue_eq (p : Nat) (hp : 0 < p) (q : ℚ) (hq : 0 < q) :
    sigValue p q = rne (q * 10 ^ ((p : Int) - 1 - Int.log 10 q)) * 10 ^ (Int.log 10 q + 1 - p) := by
  obtain ⟨h1, h2⟩ := sig_rne p hp q hq
  rw [sigValue, significant]
  generalize rne (q * 10 ^ ((p : Int) - 1 - Int.log 10 q)) = n at h1 h2 ⊢
  have h1' : ((10 ^ (p - 1) : Nat) : Int) ≤ n := by push_cast; exact h1
  have hn : ((n.toNat : Nat) : ℚ) = n := by
    have : ((n.toNat : Nat) : Int) = n := Int.toNat_of_nonneg (le_trans (by positivity) h1')
    exact_mod_cast congrArg (Int.cast (R := ℚ)) this
  split
  · next h =>
    rw [← hn, h]
    push_cast
    rw [← zpow_natCast, ← zpow_natCast, ← zpow_add₀ (by norm_num), ← zpow_add₀ (by norm_num)]
    congr 1
    omega
  · simp only [hn]

theorem sigValue_rounded (p : Nat) (hp : 0 < p) (q : ℚ) (hq : 0 < q) : Rounded p q (sigValue p q) := by
  refine ⟨Int.log 10 q, ?_, ⟨_, sigValue_eq p hp q hq⟩, fun j => ?_⟩
  · rw [Leading, abs_of_pos hq]; exact log_spec q hq
  · rw [sigValue_eq p hp q hq]
    have hs : q = q * 10 ^ ((p : Int) - 1 - Int.log 10 q) * 10 ^ (Int.log 10 q + 1 - (p : Int)) := by
      rw [mul_assoc, ← zpow_add₀ (by norm_num)]
      have : (p : Int) - 1 - Int.log 10 q + (Int.log 10 q + 1 - p) = 0 := by omega
      rw [this, zpow_zero, mul_one]
    have hb := rne_best (q * 10 ^ ((p : Int) - 1 - Int.log 10 q)) j
    have hpos := ten_pos (Int.log 10 q + 1 - p)
    generalize q * 10 ^ ((p : Int) - 1 - Int.log 10 q) = x at hs hb ⊢
    generalize (10 : ℚ) ^ (Int.log 10 q + 1 - (p : Int)) = u at hs hpos ⊢
    rw [hs, ← sub_mul, ← sub_mul, abs_mul, abs_mul]
    exact mul_le_mul_of_nonneg_right hb (abs_nonneg u)

theorem sigValue_pos (p : Nat) (hp : 0 < p) (q : ℚ) (hq : 0 < q) : 0 < sigValue p q := by
  have := (sig_bounds p hp q hq).1
  have h : 0 < (significant p q).1 := lt_of_lt_of_le (Nat.pow_pos (by norm_num)) this
  rw [sigValue]
  exact mul_pos (by exact_mod_cast h) (ten_pos _)

/-- Digits and exponent are determined by the value. -/
theorem sig_inj (p : Nat) (n n' : Nat) (x x' : Int) (h1 : 10 ^ (p - 1) ≤ n) (h2 : n < 10 ^ p) (h1' : 10 ^ (p - 1) ≤ n') (h2' : n' < 10 ^ p)
    (hp : 0 < p) (h : (n : ℚ) * 10 ^ (x + 1 - p) = n' * 10 ^ (x' + 1 - p)) : n = n' ∧ x = x' := by
  have key : ∀ (n n' : Nat) (x x' : Int), n < 10 ^ p → 10 ^ (p - 1) ≤ n' → (n : ℚ) * 10 ^ (x + 1 - p) = n' * 10 ^ (x' + 1 - p) → x' ≤ x := by
    intro n n' x x' h2 h1' h
    have a1 : (n : ℚ) * 10 ^ (x + 1 - p) < 10 ^ (x + 1) := by
      have : (10 : ℚ) ^ (x + 1) = (10 ^ p : Nat) * 10 ^ (x + 1 - p) := by
        push_cast; rw [← zpow_natCast, ← zpow_add₀ (by norm_num)]; congr 1; omega
      rw [this]
      exact mul_lt_mul_of_pos_right (by exact_mod_cast h2) (ten_pos _)
    have a2 : (10 : ℚ) ^ x' ≤ (n' : ℚ) * 10 ^ (x' + 1 - p) := by
      have : (10 : ℚ) ^ x' = (10 ^ (p - 1) : Nat) * 10 ^ (x' + 1 - p) := by
        push_cast; rw [← zpow_natCast, ← zpow_add₀ (by norm_num)]; congr 1; omega
      rw [this]
      exact mul_le_mul_of_nonneg_right (by exact_mod_cast h1') (ten_pos _).le
    have a3 : (10 : ℚ) ^ x' < 10 ^ (x + 1) := by rw [h] at a1; linarith
    have := (zpow_lt_zpow_iff_right₀ (by norm_num : (1 : ℚ) < 10)).mp a3
    omega
  have hx : x = x' := le_antisymm (key n' n x' x h2' h1 h.symm) (key n n' x x' h2 h1' h)
  subst hx
  refine ⟨?_, rfl⟩
  have := mul_right_cancel₀ (ten_pos _).ne' h
  exact_mod_cast this

/-! ## Digits and their text -/

theorem lastDigits_length (k n : Nat) : (lastDigits k n).length = k := by
  induction k generalizing n with
  | zero => rfl
  | succ k ih => simp [lastDigits, ih]

theorem digit_char (d : Nat) (h : d < 10) : (48 : UInt8) ≤ UInt8.ofNat (48 + d) ∧ UInt8.ofNat (48 + d) ≤ 57 ∧ (UInt8.ofNat (48 + d)).toNat - 48 = d := by
  have : ∀ d : Fin 10, (48 : UInt8) ≤ UInt8.ofNat (48 + d.val) ∧ UInt8.ofNat (48 + d.val) ≤ 57 ∧ (UInt8.ofNat (48 + d.val)).toNat - 48 = d.val := by decide
  exact this ⟨d, h⟩

theorem lastDigits_digits (k n : Nat) : Digits (lastDigits k n) := by
  induction k generalizing n with
  | zero => intro c hc; simp [lastDigits] at hc
  | succ k ih =>
    intro c hc
    simp only [lastDigits, List.mem_append, List.mem_singleton] at hc
    rcases hc with hc | rfl
    · exact ih _ c hc
    · have := digit_char (n % 10) (Nat.mod_lt _ (by norm_num))
      exact ⟨this.1, this.2.1⟩

theorem lastDigits_value (k n : Nat) : horner (lastDigits k n) = n % 10 ^ k := by
  induction k generalizing n with
  | zero => simp [lastDigits, horner, Nat.mod_one]
  | succ k ih =>
    rw [lastDigits, horner_append, ih]
    simp only [horner, List.length_cons, List.length_nil, Nat.zero_add, Nat.pow_one, Nat.pow_zero, Nat.mul_one, Nat.add_zero,
      (digit_char (n % 10) (Nat.mod_lt _ (by norm_num))).2.2]
    rw [Nat.pow_succ, Nat.mul_comm (10 ^ k) 10, Nat.mod_mul]
    ring

theorem horner_zeros (k : Nat) : horner (List.replicate k 48) = 0 := by
  induction k with
  | zero => rfl
  | succ k ih => simp [List.replicate_succ, horner, ih]

theorem dropZeros_spec (s : Str) : ∃ k, s = dropZeros s ++ List.replicate k 48 := by
  induction s with
  | nil => exact ⟨0, rfl⟩
  | cons c r ih =>
    obtain ⟨k, hk⟩ := ih
    rw [dropZeros]
    split
    · next h =>
      rw [h.1, List.nil_append] at hk
      exact ⟨k + 1, by rw [hk, h.2]; rfl⟩
    · exact ⟨k, by rw [List.cons_append, ← hk]⟩

theorem dropZeros_digits {s : Str} (h : Digits s) : Digits (dropZeros s) := by
  obtain ⟨k, hk⟩ := dropZeros_spec s
  intro c hc
  exact h c (by rw [hk]; exact List.mem_append_left _ hc)

/-- Zeros at the end of the fraction do not matter. -/
theorem fraction_value (ip fp : Str) (k n : Nat) (y : Int) (h : horner (ip ++ fp ++ List.replicate k 48) = n) :
    (horner (ip ++ fp) : ℚ) * 10 ^ (y - fp.length) = n * 10 ^ (y - (fp.length + k : Nat)) := by
  rw [horner_append, horner_zeros, List.length_replicate, Nat.add_zero] at h
  rw [← h]
  push_cast
  rw [mul_assoc, ← zpow_natCast, ← zpow_add₀ (by norm_num)]
  congr 2
  omega

theorem exponentText_spec (x : Int) : Exponent (exponentText x) x := by
  right
  have hd : ∃ ds, (if x.natAbs < 100 then lastDigits 2 x.natAbs else natText x.natAbs) = ds ∧ Digits ds ∧ ds ≠ [] ∧ horner ds = x.natAbs := by
    refine ⟨_, rfl, ?_⟩
    split
    · next h =>
      refine ⟨lastDigits_digits _ _, ?_, ?_⟩
      · intro h0
        have := lastDigits_length 2 x.natAbs
        rw [h0] at this; simp at this
      · rw [lastDigits_value]; exact Nat.mod_eq_of_lt h
    · have := natText_spec x.natAbs
      exact ⟨this.2.1, this.1, this.2.2.1⟩
  obtain ⟨ds, h0, h1, h2, h3⟩ := hd
  refine ⟨ds, h1, h2, ?_⟩
  rw [exponentText, h0, h3]
  by_cases hx : x < 0
  · right
    rw [if_pos hx]
    exact ⟨rfl, by omega⟩
  · left
    rw [if_neg hx]
    exact ⟨rfl, by omega⟩

/-- The text of digits and exponent is their value in decimal notation. -/
theorem layout_notation (p n : Nat) (x : Int) (neg : Bool) (h1 : 10 ^ (p - 1) ≤ n) (h2 : n < 10 ^ p) (hp : 0 < p) :
    Notation (signText neg ++ layout p n x) (signed neg (n * 10 ^ (x + 1 - p))) := by
  have hl := lastDigits_length p n
  have hd := lastDigits_digits p n
  have hv : horner (lastDigits p n) = n := by rw [lastDigits_value]; exact Nat.mod_eq_of_lt h2
  rw [layout]
  generalize lastDigits p n = ds at hl hd hv
  -- digits split after position `i`, with or without exponent
  have split_case : ∀ (i : Nat) (es : Str) (y : Int), 0 < i → i ≤ p → Exponent es y →
      Notation (signText neg ++ (ds.take i ++ fraction (dropZeros (ds.drop i)) ++ es)) (signed neg (n * 10 ^ (y + i - p))) := by
    intro i es y hi hip he
    obtain ⟨k, hk⟩ := dropZeros_spec (ds.drop i)
    have hlen : (dropZeros (ds.drop i)).length + k = p - i := by
      have := congrArg List.length hk
      simp only [List.length_drop, List.length_append, List.length_replicate, hl] at this
      omega
    refine ⟨neg, ds.take i, dropZeros (ds.drop i), es, y, ?_, fun c hc => hd c (List.mem_of_mem_take hc),
      dropZeros_digits (fun c hc => hd c (List.mem_of_mem_drop hc)), he, ?_, ?_⟩
    · intro h
      have := congrArg List.length h
      simp only [List.length_take, List.length_nil, hl] at this
      omega
    · simp only [signText, fraction, List.append_assoc]
      split <;> rfl
    · congr 1
      rw [fraction_value _ _ k n y, hlen]
      · congr 2; omega
      · rw [List.append_assoc, ← hk, List.take_append_drop, hv]
  split
  · next hx =>
    split
    · next hx0 =>
      have := split_case (x.toNat + 1) [] 0 (by omega) (by omega) (Or.inl ⟨rfl, rfl⟩)
      rw [List.append_nil] at this
      have e : (0 : Int) + ((x.toNat + 1 : Nat) : Int) - p = x + 1 - p := by omega
      rwa [e] at this
    · next hx0 =>
      obtain ⟨k, hk⟩ := dropZeros_spec ds
      have hlen : (dropZeros ds).length + k = p := by
        have := congrArg List.length hk
        simp only [List.length_append, List.length_replicate, hl] at this
        omega
      refine ⟨neg, b!"0", List.replicate ((-x).toNat - 1) 48 ++ dropZeros ds, [], 0, by simp, ?_, ?_, Or.inl ⟨rfl, rfl⟩, ?_, ?_⟩
      · intro c hc
        have : c = 48 := by simpa using hc
        subst this; decide
      · intro c hc
        rcases List.mem_append.mp hc with hc | hc
        · rw [(List.mem_replicate.mp hc).2]; decide
        · exact dropZeros_digits hd c hc
      · simp only [signText, fraction, List.append_assoc, List.append_nil]
        split <;> rfl
      · congr 1
        rw [fraction_value _ _ k n 0]
        · congr 2
          simp only [List.length_append, List.length_replicate]
          omega
        · have : b!"0" ++ (List.replicate ((-x).toNat - 1) 48 ++ dropZeros ds) ++ List.replicate k 48 = List.replicate (1 + ((-x).toNat - 1)) 48 ++ ds := by
            rw [List.replicate_add]
            conv => rhs; rw [hk]
            simp only [List.append_assoc]
            rfl
          rw [this, horner_append, horner_zeros, hv]
          omega
  · have := split_case 1 (exponentText x) x (by omega) (by omega) (exponentText_spec x)
    exact this

end Verif.Decimal
