import Verif.Whole.Model
import Verif.Decimal.EndToEnd
import Verif.Diff.Props
import Verif.Xml.RunProps

/-!
# Recording and comparing values, from the test to the exit code: C89
-/

namespace Verif.Whole
open Verif.Measurement Verif.Measurement.Spec Verif.Regression Verif.Regression.Spec Verif.Decimal Verif.Decimal.Spec Verif.Xml Verif.Xml.Spec Spec
open Verif.Path (isFile isReadable searchPathList)

/-! ## The texts of numbers can be recorded -/

theorem notation_printable {s : Str} {q : ℚ} (h : Notation s q) : ∀ c ∈ s, Printable c := by
  obtain ⟨neg, ip, fp, es, x, -, h1, h2, h3, rfl, -⟩ := h
  have dig : ∀ (d : Str), Digits d → ∀ c ∈ d, Printable c := by
    intro d hd c hc
    have := hd c hc
    refine Or.inr (Or.inr ⟨?_, ?_⟩)
    · exact UInt8.le_trans (by decide) this.1
    · exact UInt8.le_trans this.2 (by decide)
  intro c hc
  simp only [List.mem_append] at hc
  rcases hc with ((hc | hc) | hc) | hc
  · cases neg
    · simp at hc
    · simp only [if_true, List.mem_singleton] at hc; subst hc; decide
  · exact dig ip h1 c hc
  · split at hc
    · simp at hc
    · rcases List.mem_append.mp hc with hc | hc
      · rw [List.mem_singleton] at hc; subst hc; decide
      · exact dig fp h2 c hc
  · rcases h3 with ⟨rfl, -⟩ | ⟨ds, hd, -, ⟨rfl, -⟩ | ⟨rfl, -⟩⟩
    · simp at hc
    · rcases List.mem_append.mp hc with hc | hc
      · exact (show ∀ c ∈ b!"e+" ++ b!"e-", Printable c by decide) c (by simp at hc ⊢; tauto)
      · exact dig ds hd c hc
    · rcases List.mem_append.mp hc with hc | hc
      · exact (show ∀ c ∈ b!"e+" ++ b!"e-", Printable c by decide) c (by simp at hc ⊢; tauto)
      · exact dig ds hd c hc

theorem decimal_printable {s : Str} {v : Int} (h : IsDecimal v s) : ∀ c ∈ s, Printable c := by
  obtain ⟨ds, rfl, -, hd, -⟩ := h
  intro c hc
  rcases List.mem_append.mp hc with hc | hc
  · split at hc
    · rw [List.mem_singleton] at hc; subst hc; decide
    · simp at hc
  · have := hd c hc
    exact Or.inr (Or.inr ⟨UInt8.le_trans (by decide) this.1, UInt8.le_trans this.2 (by decide)⟩)

/-- The measurement of an item. -/
def Spec.Item.data (x : Item) : DataM :=
  match x.value with
  | .string s => { kind := .string, name := x.name, content := s }
  | .plain s => { kind := .plain, name := x.name, content := s }
  | .integer v => DataM.setInteger { kind := .num .integer, name := x.name } (longToInt v)
  | .float q => setFloat { kind := .num .float, name := x.name } (.ofRat q)
  | .double q => setDouble { kind := .num .double, name := x.name } (.ofRat q)
  | .boolean b => DataM.setBoolean { kind := .num .boolean, name := x.name } b

theorem call_data (x : Item) : x.call.meas = .data x.data := by
  rcases x with ⟨n, v, t⟩
  cases v <;> rfl

theorem recorded_data (x : Item) : recordedMeas x.call = .data x.data := by rw [recordedMeas, call_data]

theorem data_name (x : Item) : x.data.name = x.name := by
  rcases x with ⟨n, v, t⟩
  cases v <;> rfl

theorem data_printable (x : Item) (hx : x.Valid) : ∀ c ∈ x.data.content, Printable c := by
  rcases x with ⟨n, v, t⟩
  obtain ⟨-, -, hv⟩ := hx
  cases v with
  | string s => exact hv
  | plain s => exact hv
  | integer v =>
    refine decimal_printable (C27_integer_roundtrip _ _ ?_ ?_).1 <;> simp only [intMin, intMax, longToInt] <;> omega
  | float q => exact notation_printable (write_notation' 7 (by norm_num) q)
  | double q => exact notation_printable (write_notation' 16 (by norm_num) q)
  | boolean b =>
    have : ∀ c ∈ b!"0" ++ b!"1", Printable c := by decide
    cases b
    · exact fun c hc => this c (List.mem_append_left _ hc)
    · exact fun c hc => this c (List.mem_append_right _ hc)

theorem longToInt_small (v : Int) (h : |v| < 2 ^ 30) : longToInt v = v := by
  have := abs_lt.mp h
  simp only [longToInt]
  omega

theorem integer_read (n : Str) (v : Int) (h : |v| < 2 ^ 30) : getInteger (DataM.setInteger { kind := .num .integer, name := n } (longToInt v)).content = v := by
  rw [(C28_long_truncated _ v 0).1, longToInt_small v h]

/-- Comparing integers with a tolerance. -/
theorem integer_tolerant (tol : ℚ) (h0 : 0 ≤ tol) (h1 : tol ≤ 1) (a b : Str) (u v : Int) (ha : getInteger a = u) (hb : getInteger b = v) (hu : |u| < 2 ^ 30) (hv : |v| < 2 ^ 30) :
    ∃ ans, isEqualTolerant ieee .integer a .integer b tol = .ok ans ∧ (Close tol u v → ans = true) ∧ (ans = true → Close (tol + 1 / 2 ^ 52) u v) := by
  have hu' := abs_lt.mp hu
  have hv' := abs_lt.mp hv
  obtain ⟨ans, e, h⟩ := C29_integer ieee a b tol (by rw [ha]; simp only [intMin]; omega) (by rw [hb]; simp only [intMin]; omega)
    (by rw [ha, hb]; simp only [intMin]; omega) (by rw [ha, hb]; simp only [intMax]; omega)
  rw [ha, hb, abs_of_nonneg h0] at h
  obtain ⟨M, hM⟩ : ∃ M, M = max |u| |v| := ⟨_, rfl⟩
  rw [← hM] at h
  have hM0 : 0 ≤ M := by rw [hM]; exact le_trans (abs_nonneg u) (le_max_left _ _)
  have hM1 : M < 2 ^ 30 := by rw [hM]; exact max_lt hu hv
  have hMq : (M : ℚ) = max |(u : ℚ)| |(v : ℚ)| := by rw [hM]; push_cast; rfl
  have hM0q : (0 : ℚ) ≤ M := by exact_mod_cast hM0
  have hkq : ((|u - v| : Int) : ℚ) = |(u : ℚ) - v| := by push_cast; rfl
  have hrnd : ieee.double.rnd = double.round := rfl
  rw [hrnd] at h
  have hmax : (2 : ℚ) ^ 31 ≤ double.max := by decide +kernel
  have hfin : ∀ x : ℚ, x ≤ 2 ^ 31 → double.nearest x ≤ double.max := by
    intro x hx
    have := double.nearest_mono (by decide) (hx.trans hmax)
    rwa [double.max_representable (by decide)] at this
  have hM1q : (M : ℚ) ≤ 2 ^ 31 := by
    have : (M : ℚ) < 2 ^ 30 := by exact_mod_cast hM1
    linarith
  have htM : tol * M ≤ M := by nlinarith
  refine ⟨ans, e, ?_, ?_⟩
  · intro hc
    rw [h, Format.round, if_pos (hfin _ (htM.trans hM1q)), WithTop.coe_le_coe]
    have hle : ((|u - v| : Int) : ℚ) ≤ tol * M := by
      rw [hkq, hMq]
      rcases hc with hc | hc
      · exact hc.trans (mul_le_mul_of_nonneg_left (le_max_left _ _) h0)
      · exact hc.trans (mul_le_mul_of_nonneg_left (le_max_right _ _) h0)
    have hm := double.nearest_mono (by decide) hle
    have hr := double.nearest_of_representable (u - v).natAbs 0 (by
      simp only [double]
      have : (u - v).natAbs < 2 ^ 31 := by omega
      exact lt_trans this (by norm_num)) (by decide)
    have hk : ((|u - v| : Int) : ℚ) = ((u - v).natAbs : ℚ) * 2 ^ (0 : Int) := by
      rw [Int.abs_eq_natAbs]; simp
    rw [hk, hr, ← hk] at hm
    exact hm
  · intro hc
    rw [h, Format.round, if_pos (hfin _ (htM.trans hM1q)), WithTop.coe_le_coe] at hc
    have hacc := (abs_le.mp (double.nearest_accuracy (mul_nonneg h0 hM0q))).2
    apply close_of_max
    rw [← hMq, ← hkq]
    rcases hM0.eq_or_lt with hz | hpos
    · rw [← hz] at hc ⊢
      simp only [Int.cast_zero, mul_zero, double.nearest_zero] at hc ⊢
      exact hc
    · have h1M : (1 : ℚ) ≤ M := by exact_mod_cast hpos
      have e1 : (2 : ℚ) ^ (-(double.prec : Int)) = 1 / 2 ^ 53 := by norm_num [double]
      have e2 : (2 : ℚ) ^ (double.emin - 1) ≤ 1 / 2 ^ 53 := by
        have : (2 : ℚ) ^ (double.emin - 1) ≤ 2 ^ (-53 : Int) := zpow_le_zpow_right₀ (by norm_num) (by decide)
        refine this.trans (le_of_eq (by norm_num))
      rw [e1] at hacc
      have : (1 / 2 ^ 53 : ℚ) * (tol * M) ≤ 1 / 2 ^ 53 * M := mul_le_mul_of_nonneg_left htM (by positivity)
      have : (1 / 2 ^ 53 : ℚ) ≤ 1 / 2 ^ 53 * M := le_mul_of_one_le_right (by positivity) h1M
      have : (1 / 2 ^ 52 : ℚ) * M = 1 / 2 ^ 53 * M + 1 / 2 ^ 53 * M := by ring
      linarith

/-- Comparing numbers that were written as floats, or as doubles, with a tolerance. -/
theorem float_tolerant (tol : ℚ) (h0 : 0 < tol) (h1 : tol ≤ 1) (q r : ℚ) (hq : IsFloat q) (hr : IsFloat r) :
    ∃ b, isEqualTolerant ieee .float (floatText (.ofRat q)) .float (floatText (.ofRat r)) tol = .ok b ∧
      (Close (tol - 5 / 10 ^ 6) q r → b = true) ∧ (b = true → Close (tol + 5 / 10 ^ 6) q r ∨ (|q| < 1 / 2 ^ 22 ∧ |r| < 1 / 2 ^ 22)) := by
  have ht : ({ tolerantCompare := true, relativeTolerance := tol } : CompareVisitor).getTolerance = tol := rfl
  obtain ⟨b, hb, h⟩ := C88_float { tolerantCompare := true, relativeTolerance := tol } (by rw [ht]; exact h0) (by rw [ht]; exact h1) (fun _ => none) [] [] q r hq hr
  rw [ht] at h
  refine ⟨b, ?_, h⟩
  rw [← hb, visit_data, show (setFloat { kind := .num .float, name := [] } (.ofRat r)).kind = .num .float from rfl]
  simp only
  rw [compareNumeric_eq _ ieee _ _ _ .float .float rfl rfl, if_pos (by rw [ht]; exact h0.ne'), ht]
  rfl

theorem double_tolerant (tol : ℚ) (h0 : 0 < tol) (h1 : tol ≤ 1) (q r : ℚ) (hq : IsDouble q) (hr : IsDouble r) :
    ∃ b, isEqualTolerant ieee .double (doubleText (.ofRat q)) .double (doubleText (.ofRat r)) tol = .ok b ∧
      (Close (tol - 5 / 10 ^ 15) q r → b = true) ∧ (b = true → Close (tol + 5 / 10 ^ 15) q r ∨ (|q| < 1 / 2 ^ 51 ∧ |r| < 1 / 2 ^ 51)) := by
  have ht : ({ tolerantCompare := true, relativeTolerance := tol } : CompareVisitor).getTolerance = tol := rfl
  obtain ⟨b, hb, h⟩ := C88_double { tolerantCompare := true, relativeTolerance := tol } (by rw [ht]; exact h0) (by rw [ht]; exact h1) (fun _ => none) [] [] q r hq hr
  rw [ht] at h
  refine ⟨b, ?_, h⟩
  rw [← hb, visit_data, show (setDouble { kind := .num .double, name := [] } (.ofRat r)).kind = .num .double from rfl]
  simp only
  rw [compareNumeric_eq _ ieee _ _ _ .double .double rfl rfl, if_pos (by rw [ht]; exact h0.ne'), ht]
  rfl

/-- What the program calls agreement lies between the two relations. -/
theorem agree_between (env : Env) (hnum : env.num = ieee) (tol : ℚ) (h0 : 0 ≤ tol) (h1 : tol ≤ 1) (x y : Item) (hx : x.Valid) (hy : y.Valid) (o : Obs)
    (ho : o.call = y.call) (ht : o.tolerance = tol) :
    (MustPass tol x y → Agree env (.data x.data) o) ∧ (Agree env (.data x.data) o → MayPass tol x y) := by
  have hpos : tol ≠ 0 → 0 < tol := fun h => lt_of_le_of_ne h0 (Ne.symm h)
  rw [Agree, ho, call_data]
  have hname : (Meas.data x.data).name = x.name ∧ (Meas.data y.data).name = y.name := ⟨data_name x, data_name y⟩
  rw [hname.1, hname.2, MustPass, MayPass, SameValue.eq_def, ho, ht, hnum]
  obtain ⟨-, -, hx⟩ := hx
  obtain ⟨-, -, hy⟩ := hy
  rcases x with ⟨n, u, s⟩
  rcases y with ⟨m, v, t⟩
  cases u with
  | string a => cases v <;> simp [Item.data, Meas.type, setFloat, setDouble, DataM.setInteger, DataM.setBoolean, DataM.setContent, Kind.typeName]
  | plain a => cases v <;> simp [Item.data, Meas.type, setFloat, setDouble, DataM.setInteger, DataM.setBoolean, DataM.setContent, Kind.typeName]
  | integer a =>
    cases v with
    | integer b =>
      have hk : Item.data ⟨m, .integer b, t⟩ = DataM.setInteger { kind := .num .integer, name := m } (longToInt b) := rfl
      have hk' : Item.data ⟨n, .integer a, s⟩ = DataM.setInteger { kind := .num .integer, name := n } (longToInt a) := rfl
      have ra := integer_read n a hx
      have rb := integer_read m b hy
      show (n = m ∧ (if t = true ∧ tol ≠ 0 then _ else _) → n = m ∧ _ = _ ∧ (if t = true ∧ tol ≠ 0 then _ else _)) ∧ (n = m ∧ _ = _ ∧ (if t = true ∧ tol ≠ 0 then _ else _) → n = m ∧ (if t = true ∧ tol ≠ 0 then _ else _))
      rw [hk, hk']
      by_cases hc : t = true ∧ tol ≠ 0
      · simp only [if_pos hc]
        obtain ⟨ans, e, g1, g2⟩ := integer_tolerant tol h0 h1 _ _ a b ra rb hx hy
        rw [e]
        simp only [Except.ok.injEq]
        exact ⟨fun h => ⟨h.1, rfl, g1 h.2⟩, fun h => ⟨h.1, g2 h.2.2⟩⟩
      · simp only [if_neg hc]
        refine ⟨fun h => ⟨h.1, rfl, by rw [h.2]; rfl⟩, fun h => ⟨h.1, ?_⟩⟩
        have := h.2.2
        rw [← ra, ← rb, this]
    | _ => simp [Item.data, Meas.type, setFloat, setDouble, DataM.setInteger, DataM.setBoolean, DataM.setContent, Kind.typeName]
  | float a =>
    cases v with
    | float b =>
      show (n = m ∧ (if t = true ∧ tol ≠ 0 then _ else _) → n = m ∧ _ = _ ∧ (if t = true ∧ tol ≠ 0 then isEqualTolerant ieee .float (floatText (.ofRat a)) .float (floatText (.ofRat b)) tol = .ok true else floatText (.ofRat a) = floatText (.ofRat b))) ∧
        (n = m ∧ _ = _ ∧ (if t = true ∧ tol ≠ 0 then isEqualTolerant ieee .float (floatText (.ofRat a)) .float (floatText (.ofRat b)) tol = .ok true else floatText (.ofRat a) = floatText (.ofRat b)) → n = m ∧ (if t = true ∧ tol ≠ 0 then _ else _))
      by_cases hc : t = true ∧ tol ≠ 0
      · simp only [if_pos hc]
        obtain ⟨ans, e, g1, g2⟩ := float_tolerant tol (hpos hc.2) h1 a b hx hy
        rw [e]
        simp only [Except.ok.injEq]
        exact ⟨fun h => ⟨h.1, rfl, g1 h.2⟩, fun h => ⟨h.1, g2 h.2.2⟩⟩
      · simp only [if_neg hc]
        refine ⟨fun h => ⟨h.1, rfl, by rw [h.2]⟩, fun h => ⟨h.1, ?_⟩⟩
        by_contra hn
        refine (C85_far_values_differ a b).1 ?_ h.2.2
        rw [show (10 : ℚ) ^ (-6 : Int) = 1 / 10 ^ 6 by norm_num]
        exact not_le.mp hn
    | _ => simp [Item.data, Meas.type, setFloat, setDouble, DataM.setInteger, DataM.setBoolean, DataM.setContent, Kind.typeName]
  | double a =>
    cases v with
    | double b =>
      show (n = m ∧ (if t = true ∧ tol ≠ 0 then _ else _) → n = m ∧ _ = _ ∧ (if t = true ∧ tol ≠ 0 then isEqualTolerant ieee .double (doubleText (.ofRat a)) .double (doubleText (.ofRat b)) tol = .ok true else doubleText (.ofRat a) = doubleText (.ofRat b))) ∧
        (n = m ∧ _ = _ ∧ (if t = true ∧ tol ≠ 0 then isEqualTolerant ieee .double (doubleText (.ofRat a)) .double (doubleText (.ofRat b)) tol = .ok true else doubleText (.ofRat a) = doubleText (.ofRat b)) → n = m ∧ (if t = true ∧ tol ≠ 0 then _ else _))
      by_cases hc : t = true ∧ tol ≠ 0
      · simp only [if_pos hc]
        obtain ⟨ans, e, g1, g2⟩ := double_tolerant tol (hpos hc.2) h1 a b hx hy
        rw [e]
        simp only [Except.ok.injEq]
        exact ⟨fun h => ⟨h.1, rfl, g1 h.2⟩, fun h => ⟨h.1, g2 h.2.2⟩⟩
      · simp only [if_neg hc]
        refine ⟨fun h => ⟨h.1, rfl, by rw [h.2]⟩, fun h => ⟨h.1, ?_⟩⟩
        by_contra hn
        refine (C85_far_values_differ a b).2 ?_ h.2.2
        rw [show (10 : ℚ) ^ (-15 : Int) = 1 / 10 ^ 15 by norm_num]
        exact not_le.mp hn
    | _ => simp [Item.data, Meas.type, setFloat, setDouble, DataM.setInteger, DataM.setBoolean, DataM.setContent, Kind.typeName]
  | boolean a =>
    cases v with
    | boolean b =>
      have ra := C27_boolean_roundtrip { kind := .num .boolean, name := n } a
      have rb := C27_boolean_roundtrip { kind := .num .boolean, name := m } b
      show (n = m ∧ a = b → n = m ∧ _ = _ ∧ (if t = true ∧ tol ≠ 0 then isEqualTolerant ieee .boolean (DataM.setBoolean { kind := .num .boolean, name := n } a).content .boolean (DataM.setBoolean { kind := .num .boolean, name := m } b).content tol = .ok true
          else (DataM.setBoolean { kind := .num .boolean, name := n } a).content = (DataM.setBoolean { kind := .num .boolean, name := m } b).content)) ∧
        (n = m ∧ _ = _ ∧ (if t = true ∧ tol ≠ 0 then isEqualTolerant ieee .boolean (DataM.setBoolean { kind := .num .boolean, name := n } a).content .boolean (DataM.setBoolean { kind := .num .boolean, name := m } b).content tol = .ok true
          else (DataM.setBoolean { kind := .num .boolean, name := n } a).content = (DataM.setBoolean { kind := .num .boolean, name := m } b).content) → n = m ∧ a = b)
      simp only [isEqualTolerant, ne_eq, not_true_eq_false, if_false, ra, rb, Except.ok.injEq, decide_eq_true_eq]
      by_cases hc : t = true ∧ ¬ tol = 0
      · simp only [if_pos hc]
        exact ⟨fun h => ⟨h.1, rfl, h.2⟩, fun h => ⟨h.1, h.2.2⟩⟩
      · simp only [if_neg hc]
        refine ⟨fun h => ⟨h.1, rfl, by rw [h.2]; rfl⟩, fun h => ⟨h.1, ?_⟩⟩
        rw [← ra, ← rb, h.2.2]
    | _ => simp [Item.data, Meas.type, setFloat, setDouble, DataM.setInteger, DataM.setBoolean, DataM.setContent, Kind.typeName]

theorem failures_between (env : Env) (hnum : env.num = ieee) (tol : ℚ) (h0 : 0 ≤ tol) (h1 : tol ≤ 1) : ∀ (xs ys : List Item) (os : List Obs),
    (∀ x ∈ xs, x.Valid) → (∀ y ∈ ys, y.Valid) → os.map (·.call) = ys.map Item.call → (∀ o ∈ os, o.tolerance = tol) →
    unlike (MayPass tol) xs ys ≤ failures env (xs.map fun x => recordedMeas x.call) os ∧
      failures env (xs.map fun x => recordedMeas x.call) os ≤ unlike (MustPass tol) xs ys := by
  intro xs ys
  induction ys generalizing xs with
  | nil =>
    intro os _ _ ho _
    have : os = [] := by simpa using ho
    subst this
    cases xs <;> simp [unlike, failures]
  | cons y ys ih =>
    intro os hx hy ho ht
    cases os with
    | nil => simp at ho
    | cons o os =>
      simp only [List.map_cons, List.cons.injEq] at ho
      cases xs with
      | nil =>
        have := ih [] os (by simp) (fun z hz => hy z (by simp [hz])) ho.2 (fun z hz => ht z (by simp [hz]))
        simp only [List.map_nil, unlike, failures] at this ⊢
        omega
      | cons x xs =>
        have := ih xs os (fun z hz => hx z (by simp [hz])) (fun z hz => hy z (by simp [hz])) ho.2 (fun z hz => ht z (by simp [hz]))
        obtain ⟨g1, g2⟩ := agree_between env hnum tol h0 h1 x y (hx x (by simp)) (hy y (by simp)) o ho.1 (ht o (by simp))
        simp only [List.map_cons, recorded_data, unlike, failures] at this ⊢
        by_cases a : MustPass tol x y
        · rw [if_pos a, if_pos (g1 a), if_pos (g2 (g1 a))]; omega
        · rw [if_neg a]
          by_cases b : Agree env (.data x.data) o
          · rw [if_pos b, if_pos (g2 b)]; omega
          · rw [if_neg b]
            split <;> omega

theorem comparable_items (tol : ℚ) (h0 : 0 ≤ tol) (h1 : tol ≤ 1) (x y : Item) (hx : x.Valid) (hy : y.Valid) (k : NumKind) (hk : x.data.kind = .num k)
    (hk' : y.data.kind = .num k) : ¬ IsUB (isEqualTolerant ieee k x.data.content k y.data.content tol) := by
  obtain ⟨-, -, hx⟩ := hx
  obtain ⟨-, -, hy⟩ := hy
  rcases x with ⟨n, u, s⟩
  rcases y with ⟨m, v, t⟩
  cases k with
  | integer =>
    cases u <;> simp [Item.data, setFloat, setDouble, DataM.setInteger, DataM.setBoolean, DataM.setContent] at hk
    cases v <;> simp [Item.data, setFloat, setDouble, DataM.setInteger, DataM.setBoolean, DataM.setContent] at hk'
    rename_i a b
    obtain ⟨ans, e, -⟩ := integer_tolerant tol h0 h1 _ _ a b (integer_read n a hx) (integer_read m b hy) hx hy
    intro h
    obtain ⟨w, hw⟩ := h
    have e' : isEqualTolerant ieee .integer (Item.data ⟨n, .integer a, s⟩).content .integer (Item.data ⟨m, .integer b, t⟩).content tol = .ok ans := e
    rw [e'] at hw
    cases hw
  | _ =>
    rintro ⟨w, hw⟩
    simp [isEqualTolerant] at hw

theorem call_plain (y : Item) (content name : Str) (h : y.call = .textPlain content name) : y.value = .plain content ∧ y.name = name := by
  rcases y with ⟨m, v, t⟩
  cases v <;> simp [Item.call] at h ⊢
  exact h

theorem data_plain (x : Item) (h : (Meas.data x.data).type = b!"text/plain") : ∃ a, x.value = .plain a ∧ x.data.content = a := by
  rcases x with ⟨m, v, t⟩
  cases v <;> simp [Item.data, Meas.type, setFloat, setDouble, DataM.setInteger, DataM.setBoolean, DataM.setContent, Kind.typeName] at h ⊢

/-- Recording and comparing, at different places, by objects with search paths and with other arguments. -/
theorem record_compare_at (X : Expat) (hX : Conforms X) (mem : (Int → Nat) × (Int → Nat)) (steps : Nat) (xs ys : List Item) (hx : ∀ x ∈ xs, x.Valid) (hy : ∀ y ∈ ys, y.Valid)
    (hplain : ∀ x ∈ xs, ∀ y ∈ ys, ∀ a b, x.value = .plain a → y.value = .plain b → x.name = y.name → Diff.Spec.Fits a b ∧ Diff.Spec.TopClear a b ∧ Diff.Spec.Enough steps a b)
    (tol tol' : ℚ) (h0 : 0 ≤ tol') (h1 : tol' ≤ 1) (fuel : Nat) (hfuel : 1 < fuel) (sp more sp' more' : List Str) (hstop : Stops more) (hstop' : Stops more')
    (prog f prog' f' : Str) (w w2 : World) (hw : Comment (commentText w)) (hf : f ≠ []) (hf' : f' ≠ []) (hcreate : w.creatable (cstr f) = true)
    (hnew : w.fs.stat (cstr f) = none ∨ (w.fs.canRead (cstr f) = true ∧ w.fs.canWrite (cstr f) = true))
    (w1 : World) (hw1 : (main (whole X mem steps) (fun _ => straight 0 (xs.map Item.call)) fuel (prog :: b!"-O" :: f :: more) ⟨{ tolerance := tol, searchPath := sp }, w⟩).1.world = w1)
    (hdoc : isFile w2.fs f' = true ∧ isReadable w2.fs f' = true ∧ w2.openRead f' = w1.openRead f)
    (hsp : (if searchPathList w2.fs f' sp' = [] then f' else searchPathList w2.fs f' sp') = f') :
    (main (whole X mem steps) (fun _ => straight 0 (xs.map Item.call)) fuel (prog :: b!"-O" :: f :: more) ⟨{ tolerance := tol, searchPath := sp }, w⟩).2 = .ok 0 ∧
    (isFile w1.fs f = true ∧ isReadable w1.fs f = true) ∧
    ∃ n : Nat, (main (whole X mem steps) (fun _ => straight 0 (ys.map Item.call)) fuel (prog' :: b!"-I" :: f' :: more') ⟨{ tolerance := tol', searchPath := sp' }, w2⟩).2 = .ok n ∧
      unlike (MayPass tol') xs ys ≤ n ∧ n ≤ unlike (MustPass tol') xs ys := by

  obtain ⟨⟨r1, r2, r3, r4⟩, hv⟩ := record_run_at tol sp more hstop X { num := Decimal.ieee, readXML := fun _ => .ok [], diff := Diff.diff (some mem) steps } 0 (xs.map Item.call) fuel hfuel prog f w hf hcreate hnew
  have hread := read_recording X hX (xs.map Item.call) w hw (fun c hc => by
    obtain ⟨x, hx', rfl⟩ := List.mem_map.mp hc
    refine recorded_clean _ x.data (call_data x) ?_ ?_
    · rw [call_data]
      show ∀ c ∈ x.data.name, AttrChar c
      rw [data_name]; exact (hx x hx').2.1
    · rw [call_data]; exact data_printable x (hx x hx'))
  rw [← whole, hw1] at r1 r2 r3 r4
  refine ⟨hv, ⟨r1, r2⟩, ?_⟩
  rw [r3] at hdoc
  clear r3
  obtain ⟨d1, d2, r3⟩ := hdoc
  obtain ⟨bytes, hbytes⟩ : ∃ b, b = header w ++ ((xs.map Item.call).map fun c => line (recordedMeas c)).flatten ++ footer := ⟨_, rfl⟩
  rw [← hbytes] at r3 hread
  obtain ⟨os, hos, htol, hmain⟩ := compare_data_at tol' sp' more' hstop' (whole X mem steps) fuel hfuel prog' f' w2 bytes hf' hsp d1 d2 r3 ((xs.map Item.call).map recordedMeas) hread (by
      intro b hb
      obtain ⟨c, hc, rfl⟩ := List.mem_map.mp hb
      obtain ⟨x, hx', rfl⟩ := List.mem_map.mp hc
      exact ⟨recorded_plainly _, x.data, recorded_data x⟩) (ys.map Item.call) (by
      intro c hc
      obtain ⟨y, hy', rfl⟩ := List.mem_map.mp hc
      rw [call_data]
      refine ⟨⟨_, rfl⟩, ?_⟩
      show y.data.name ≠ []
      rw [data_name]; exact (hy y hy').1) (by
      intro b hb c hc
      obtain ⟨c', hc', rfl⟩ := List.mem_map.mp hb
      obtain ⟨x, hx', rfl⟩ := List.mem_map.mp hc'
      obtain ⟨y, hy', rfl⟩ := List.mem_map.mp hc
      intro e d k he hd hke hkd _
      rw [recorded_data] at he
      rw [call_data] at hd
      cases he
      cases hd
      exact comparable_items tol' h0 h1 x y (hx x hx') (hy y hy') k hke hkd) (by
      intro b hb content name hc hn ht
      obtain ⟨c', hc', rfl⟩ := List.mem_map.mp hb
      obtain ⟨x, hx', rfl⟩ := List.mem_map.mp hc'
      obtain ⟨y, hy', hye⟩ := List.mem_map.mp hc
      rw [recorded_data] at hn ht ⊢
      obtain ⟨y1, y2⟩ := call_plain y content name hye
      obtain ⟨a, x1, x2⟩ := data_plain x ht
      obtain ⟨p1, p2, p3⟩ := hplain x hx' y hy' a content x1 y1 (by rw [y2, ← hn]; exact (data_name x).symm)
      obtain ⟨t, ht⟩ := Diff.C15_total a content p1 p2
      refine ⟨t, ?_⟩
      show Diff.diff (some mem) steps x.data.content content = .ok t
      rw [x2]
      exact ht mem steps p3)
  refine ⟨_, hmain, ?_⟩
  have := failures_between (whole X mem steps) rfl tol' h0 h1 xs ys os hx hy hos htol
  rw [List.map_map]
  exact this

/-- **C89.** Record the values of one run and compare another run with the record, with a tolerance between 0 and 1: `Main` returns at most the number
of measurements of the second run that need not be accepted, and at least the number of those that must not be.  Nothing is assumed about the two runs
being related.  Plain texts with the same name must have no harmful clash of hashes (see C17). -/
theorem C89_record_and_compare (X : Expat) (hX : Conforms X) (mem : (Int → Nat) × (Int → Nat)) (steps : Nat) (xs ys : List Item) (hx : ∀ x ∈ xs, x.Valid) (hy : ∀ y ∈ ys, y.Valid)
    (hplain : ∀ x ∈ xs, ∀ y ∈ ys, ∀ a b, x.value = .plain a → y.value = .plain b → x.name = y.name → Diff.Spec.Fits a b ∧ Diff.Spec.TopClear a b ∧ Diff.Spec.Enough steps a b)
    (tol : ℚ) (h0 : 0 ≤ tol) (h1 : tol ≤ 1) (fuel : Nat) (hfuel : 1 < fuel)
    (prog f : Str) (w : World) (hw : Comment (commentText w)) (hf : f ≠ []) (hcreate : w.creatable (cstr f) = true)
    (hnew : w.fs.stat (cstr f) = none ∨ (w.fs.canRead (cstr f) = true ∧ w.fs.canWrite (cstr f) = true))
    (w1 : World) (hw1 : (main (whole X mem steps) (fun _ => straight 0 (xs.map Item.call)) fuel [prog, b!"-O", f] ⟨{}, w⟩).1.world = w1) :
    (main (whole X mem steps) (fun _ => straight 0 (xs.map Item.call)) fuel [prog, b!"-O", f] ⟨{}, w⟩).2 = .ok 0 ∧
    ∃ n : Nat, (main (whole X mem steps) (fun _ => straight 0 (ys.map Item.call)) fuel [prog, b!"-I", f] ⟨{ tolerance := tol }, w1⟩).2 = .ok n ∧
      unlike (MayPass tol) xs ys ≤ n ∧ n ≤ unlike (MustPass tol) xs ys := by
  obtain ⟨⟨r1, r2, -, -⟩, -⟩ := record_run X { num := Decimal.ieee, readXML := fun _ => .ok [], diff := Diff.diff (some mem) steps } 0 (xs.map Item.call) fuel hfuel prog f w hf hcreate hnew
  rw [← whole, hw1] at r1 r2
  obtain ⟨g1, -, g2⟩ := record_compare_at X hX mem steps xs ys hx hy hplain _ tol h0 h1 fuel hfuel [] [] [] [] (by simp [Stops]) (by simp [Stops]) prog f prog f w w1 hw hf hf hcreate hnew w1 hw1
    ⟨r1, r2, rfl⟩ rfl
  exact ⟨g1, g2⟩

theorem unlike_zero (R : Item → Item → Prop) : ∀ xs ys : List Item, unlike R xs ys = 0 ↔ ∃ zs, zs <+: xs ∧ List.Forall₂ R zs ys := by
  intro xs ys
  induction ys generalizing xs with
  | nil =>
    have : unlike R xs [] = 0 := by cases xs <;> simp [unlike]
    simp only [this, true_iff]
    exact ⟨[], List.nil_prefix, .nil⟩
  | cons y ys ih =>
    cases xs with
    | nil =>
      simp only [unlike]
      refine ⟨fun h => by omega, ?_⟩
      rintro ⟨zs, h1, h2⟩
      rw [List.prefix_nil] at h1
      subst h1
      cases h2
    | cons x xs =>
      rw [unlike, Nat.add_eq_zero_iff, ih]
      constructor
      · rintro ⟨h1, zs, h2, h3⟩
        have hR : R x y := by
          by_contra hn
          rw [if_neg hn] at h1
          omega
        exact ⟨x :: zs, List.cons_prefix_cons.mpr ⟨rfl, h2⟩, .cons hR h3⟩
      · rintro ⟨zs, h1, h2⟩
        cases h2 with
        | cons hR h3 =>
          obtain ⟨rfl, h4⟩ := List.cons_prefix_cons.mp h1
          exact ⟨if_pos hR, _, h4, h3⟩

/-- **C89.** So the second run passes if each of its measurements must be accepted against the recorded one at its position; and if it passes, each of them may be. -/
theorem C89_passes (X : Expat) (hX : Conforms X) (mem : (Int → Nat) × (Int → Nat)) (steps : Nat) (xs ys : List Item) (hx : ∀ x ∈ xs, x.Valid) (hy : ∀ y ∈ ys, y.Valid)
    (hplain : ∀ x ∈ xs, ∀ y ∈ ys, ∀ a b, x.value = .plain a → y.value = .plain b → x.name = y.name → Diff.Spec.Fits a b ∧ Diff.Spec.TopClear a b ∧ Diff.Spec.Enough steps a b)
    (tol : ℚ) (h0 : 0 ≤ tol) (h1 : tol ≤ 1) (fuel : Nat) (hfuel : 1 < fuel)
    (prog f : Str) (w : World) (hw : Comment (commentText w)) (hf : f ≠ []) (hcreate : w.creatable (cstr f) = true)
    (hnew : w.fs.stat (cstr f) = none ∨ (w.fs.canRead (cstr f) = true ∧ w.fs.canWrite (cstr f) = true))
    (w1 : World) (hw1 : (main (whole X mem steps) (fun _ => straight 0 (xs.map Item.call)) fuel [prog, b!"-O", f] ⟨{}, w⟩).1.world = w1) :
    ((∃ zs, zs <+: xs ∧ List.Forall₂ (MustPass tol) zs ys) →
      (main (whole X mem steps) (fun _ => straight 0 (ys.map Item.call)) fuel [prog, b!"-I", f] ⟨{ tolerance := tol }, w1⟩).2 = .ok 0) ∧
    ((main (whole X mem steps) (fun _ => straight 0 (ys.map Item.call)) fuel [prog, b!"-I", f] ⟨{ tolerance := tol }, w1⟩).2 = .ok 0 →
      ∃ zs, zs <+: xs ∧ List.Forall₂ (MayPass tol) zs ys) := by
  obtain ⟨-, n, h, h2, h3⟩ := C89_record_and_compare X hX mem steps xs ys hx hy hplain tol h0 h1 fuel hfuel prog f w hw hf hcreate hnew w1 hw1
  rw [h, ← unlike_zero, ← unlike_zero]
  constructor
  · intro hz
    have : n = 0 := by omega
    rw [this]; rfl
  · intro hn
    have : (n : Int) = 0 := by injection hn
    omega

/-- The hypotheses are met: an integer within the tolerance, a changed double, plain text and a string. -/
example : ∃ w1, (main (whole reference (fun _ => 0, fun _ => 0) 20) (fun _ => straight 0 ([⟨b!"i", .integer 101, true⟩, ⟨b!"d", .double 2, true⟩, ⟨b!"p", .plain b!"a\nb", true⟩, ⟨b!"s", .string b!"<", true⟩].map Item.call)) 2
    [b!"prog", b!"-I", b!"f"] ⟨{ tolerance := 1 / 10 }, w1⟩).2 = .ok 2 := by
  obtain ⟨-, n, h, h2, h3⟩ := C89_record_and_compare reference reference_conforms (fun _ => 0, fun _ => 0) 20
    [⟨b!"i", .integer 100, true⟩, ⟨b!"d", .double 1, true⟩, ⟨b!"p", .plain b!"a\nc", true⟩, ⟨b!"s", .string b!"<", true⟩]
    [⟨b!"i", .integer 101, true⟩, ⟨b!"d", .double 2, true⟩, ⟨b!"p", .plain b!"a\nb", true⟩, ⟨b!"s", .string b!"<", true⟩]
    (by
      have d1 : IsDouble 1 := ⟨1, 0, by norm_num, by norm_num, by norm_num, by norm_num⟩
      simp only [List.mem_cons, List.not_mem_nil, or_false, forall_eq_or_imp, forall_eq]
      exact ⟨⟨by decide, by decide, (by norm_num : |(100 : Int)| < 2 ^ 30)⟩, ⟨by decide, by decide, d1⟩, ⟨by decide, by decide, (by decide : ∀ c ∈ b!"a\nc", Printable c)⟩, ⟨by decide, by decide, (by decide : ∀ c ∈ b!"<", Printable c)⟩⟩)
    (by
      have d1 : IsDouble 2 := ⟨2, 0, by norm_num, by norm_num, by norm_num, by norm_num⟩
      simp only [List.mem_cons, List.not_mem_nil, or_false, forall_eq_or_imp, forall_eq]
      exact ⟨⟨by decide, by decide, (by norm_num : |(101 : Int)| < 2 ^ 30)⟩, ⟨by decide, by decide, d1⟩, ⟨by decide, by decide, (by decide : ∀ c ∈ b!"a\nb", Printable c)⟩, ⟨by decide, by decide, (by decide : ∀ c ∈ b!"<", Printable c)⟩⟩)
    (by
      simp only [List.mem_cons, List.not_mem_nil, or_false, forall_eq_or_imp, forall_eq]
      simp only [Value.plain.injEq, reduceCtorEq, false_implies, implies_true, and_true, true_and]
      rintro a b rfl rfl -
      exact ⟨by rw [Diff.Spec.Fits]; decide +kernel, by rw [Diff.topClear_iff]; decide +kernel, by rw [Diff.Spec.Enough]; decide +kernel⟩)
    (1 / 10) (by norm_num) (by norm_num) 2 (by decide) b!"prog" b!"f" plainWorld plain_comment (by decide) rfl (Or.inl rfl) _ rfl
  refine ⟨_, h.trans ?_⟩
  have c1 : Close (1 / 10) ((100 : Int) : ℚ) ((101 : Int) : ℚ) := Or.inl (by norm_num [abs_of_pos, abs_of_neg])
  have c2 : ¬ Close (1 / 10 + 5 / 10 ^ 15) 1 2 := by simp only [Close]; norm_num [abs_of_pos, abs_of_neg]
  have e1 : unlike (MustPass (1 / 10)) [⟨b!"i", .integer 100, true⟩, ⟨b!"d", .double 1, true⟩, ⟨b!"p", .plain b!"a\nc", true⟩, ⟨b!"s", .string b!"<", true⟩]
    [⟨b!"i", .integer 101, true⟩, ⟨b!"d", .double 2, true⟩, ⟨b!"p", .plain b!"a\nb", true⟩, ⟨b!"s", .string b!"<", true⟩] ≤ 2 := by
    have m1 : MustPass (1 / 10) ⟨b!"i", .integer 100, true⟩ ⟨b!"i", .integer 101, true⟩ := ⟨rfl, by simpa using c1⟩
    have m4 : MustPass (1 / 10) ⟨b!"s", .string b!"<", true⟩ ⟨b!"s", .string b!"<", true⟩ := ⟨rfl, rfl⟩
    simp only [unlike, if_pos m1, if_pos m4]
    split <;> split <;> omega
  have e2 : 2 ≤ unlike (MayPass (1 / 10)) [⟨b!"i", .integer 100, true⟩, ⟨b!"d", .double 1, true⟩, ⟨b!"p", .plain b!"a\nc", true⟩, ⟨b!"s", .string b!"<", true⟩]
    [⟨b!"i", .integer 101, true⟩, ⟨b!"d", .double 2, true⟩, ⟨b!"p", .plain b!"a\nb", true⟩, ⟨b!"s", .string b!"<", true⟩] := by
    have m1 : ¬ MayPass (1 / 10) ⟨b!"d", .double 1, true⟩ ⟨b!"d", .double 2, true⟩ := by
      rintro ⟨-, h⟩
      simp only at h
      have hc : True ∧ (1 / 10 : ℚ) ≠ 0 := ⟨trivial, by norm_num⟩
      rw [if_pos hc] at h
      rcases h with h | ⟨h, -⟩
      · exact c2 h
      · norm_num at h
    have m4 : ¬ MayPass (1 / 10) ⟨b!"p", .plain b!"a\nc", true⟩ ⟨b!"p", .plain b!"a\nb", true⟩ := by
      rintro ⟨-, h⟩
      exact absurd (show b!"a\nc" = b!"a\nb" from h) (by decide)
    simp only [unlike, if_neg m1, if_neg m4]
    split <;> split <;> omega
  have : n = 2 := by omega
  rw [this]; rfl

end Verif.Whole
