import Verif.Measurement.Compare
import Verif.Measurement.CompareSpec
import Verif.Measurement.Props
import Mathlib.Tactic.Linarith
import Mathlib.Tactic.NormNum
import Mathlib.Tactic.Ring

/-!
# Properties C29, C30, C34, C59, C60: comparing measurements
-/

set_option linter.unusedSimpArgs false

namespace Verif.Measurement
open Spec

/-! ## C29 -/

theorem tolerantEqual_iff (t d : Rounding) (eps l r tol : ℚ) : tolerantEqual t d eps l r tol = true ↔
    t.rnd |l - r| ≤ d.rnd (|tol| * |l|) ∨ t.rnd |l - r| ≤ d.rnd (|tol| * |r|) ∨ (|l| < eps ∧ |r| < eps) := by
  simp [tolerantEqual, or_assoc]

/-- The comparison of two integers whose difference and magnitudes are `int` values. -/
theorem tolerantEqualInt_ok (d : Rounding) (l r : Int) (tol : ℚ) (hl : intMin < l) (hr : intMin < r)
    (h1 : intMin < l - r) (h2 : l - r ≤ intMax) :
    tolerantEqualInt d l r tol = .ok (decide ((((|l - r| : Int) : ℚ) : WithTop ℚ) ≤ d.rnd (|tol| * ((|l| : Int) : ℚ)) ∨
      (((|l - r| : Int) : ℚ) : WithTop ℚ) ≤ d.rnd (|tol| * ((|r| : Int) : ℚ)))) := by
  rw [tolerantEqualInt, if_neg (by omega), if_neg (by omega)]
  simp only
  have e1 : ¬ |l| < 0 := not_lt.mpr (abs_nonneg l)
  by_cases h : (((|l - r| : Int) : ℚ) : WithTop ℚ) ≤ d.rnd (|tol| * ((|l| : Int) : ℚ))
  · rw [if_pos h]; simp only [h, true_or, decide_true]
  · rw [if_neg h, if_neg (by omega)]
    simp only [e1, h, decide_false, Bool.false_and, Bool.or_false, false_or]

/-- **C29.** With exact arithmetic the answer for floating point numbers is the documented one. -/
theorem C29_documented_formula (env : NumEnv) (hs : env.single = .exact) (hd : env.double = .exact) (a b : Str) (tol : ℚ) :
    (isEqualTolerant env .float a .float b tol = .ok true ↔
      Accept env.epsSingle |tol| (env.readSingle a) (env.readSingle b)) ∧
    (isEqualTolerant env .double a .double b tol = .ok true ↔
      Accept env.epsDouble |tol| (env.readDouble a) (env.readDouble b)) := by
  simp only [isEqualTolerant, ne_eq, not_true_eq_false, if_false, Except.ok.injEq, tolerantEqual_iff, hs, hd,
    Rounding.exact, WithTop.coe_le_coe, Accept, Close, or_assoc, and_self]

/-- **C29.** With rounding, two doubles that are close as documented are always accepted. -/
theorem C29_close_accepted (env : NumEnv) (a b : Str) (tol : ℚ)
    (h : Accept env.epsDouble |tol| (env.readDouble a) (env.readDouble b)) :
    isEqualTolerant env .double a .double b tol = .ok true := by
  simp only [isEqualTolerant, ne_eq, not_true_eq_false, if_false, Except.ok.injEq, tolerantEqual_iff]
  rcases h with (h | h) | h
  · exact Or.inl (env.double.mono _ _ h)
  · exact Or.inr (Or.inl (env.double.mono _ _ h))
  · exact Or.inr (Or.inr h)

/-- **C29.** With rounding, two floats that are close as documented are accepted when their difference is a float (as it is
for numbers within a factor of two). -/
theorem C29_close_accepted_float (env : NumEnv) (a b : Str) (tol : ℚ)
    (hrep : env.single.rnd |env.readSingle a - env.readSingle b| ≤ env.double.rnd |env.readSingle a - env.readSingle b|)
    (h : Accept env.epsSingle |tol| (env.readSingle a) (env.readSingle b)) :
    isEqualTolerant env .float a .float b tol = .ok true := by
  simp only [isEqualTolerant, ne_eq, not_true_eq_false, if_false, Except.ok.injEq, tolerantEqual_iff]
  rcases h with (h | h) | h
  · exact Or.inl (le_trans hrep (env.double.mono _ _ h))
  · exact Or.inr (Or.inl (le_trans hrep (env.double.mono _ _ h)))
  · exact Or.inr (Or.inr h)

/-- **C29.** With rounding, what is accepted is close with respect to the larger magnitude, up to the rounding of the
difference and of the product. -/
theorem C29_accepted_close (env : NumEnv) (a b : Str) (tol : ℚ)
    (h : isEqualTolerant env .double a .double b tol = .ok true) :
    env.double.rnd |env.readDouble a - env.readDouble b| ≤
      env.double.rnd (|tol| * max |env.readDouble a| |env.readDouble b|) ∨
    (|env.readDouble a| < env.epsDouble ∧ |env.readDouble b| < env.epsDouble) := by
  simp only [isEqualTolerant, ne_eq, not_true_eq_false, if_false, Except.ok.injEq, tolerantEqual_iff] at h
  have ht := abs_nonneg tol
  rcases h with h | h | h
  · exact Or.inl (le_trans h (env.double.mono _ _ (mul_le_mul_of_nonneg_left (le_max_left _ _) ht)))
  · exact Or.inl (le_trans h (env.double.mono _ _ (mul_le_mul_of_nonneg_left (le_max_right _ _) ht)))
  · exact Or.inr h

/-- **C29.** Integers whose difference and magnitudes are representable are accepted exactly as documented, up to the
rounding of the product (the epsilon of `int` is 0, so nothing is accepted for being small). -/
theorem C29_integer (env : NumEnv) (a b : Str) (tol : ℚ) (ha : intMin < getInteger a) (hb : intMin < getInteger b)
    (h1 : intMin < getInteger a - getInteger b) (h2 : getInteger a - getInteger b ≤ intMax) :
    ∃ ans, isEqualTolerant env .integer a .integer b tol = .ok ans ∧
      (ans = true ↔ (((|getInteger a - getInteger b| : Int) : ℚ) : WithTop ℚ) ≤
        env.double.rnd (|tol| * ((max |getInteger a| |getInteger b| : Int) : ℚ))) := by
  simp only [isEqualTolerant, ne_eq, not_true_eq_false, if_false]
  rw [tolerantEqualInt_ok _ _ _ _ ha hb h1 h2]
  refine ⟨_, rfl, ?_⟩
  have ht := abs_nonneg tol
  rw [decide_eq_true_iff]
  constructor
  · rintro (h | h)
    · exact le_trans h (env.double.mono _ _ (mul_le_mul_of_nonneg_left (by exact_mod_cast le_max_left _ _) ht))
    · exact le_trans h (env.double.mono _ _ (mul_le_mul_of_nonneg_left (by exact_mod_cast le_max_right _ _) ht))
  · intro h
    rcases max_choice |getInteger a| |getInteger b| with e | e <;> rw [e] at h
    · exact Or.inl h
    · exact Or.inr h

/-- **C29, negative.** Integers too far apart, or the least integer, make the comparison undefined. -/
theorem C29_integer_ub (env : NumEnv) (a b : Str) (tol : ℚ)
    (h : getInteger a = intMin ∨ getInteger a - getInteger b ≤ intMin ∨ intMax < getInteger a - getInteger b) :
    IsUB (isEqualTolerant env .integer a .integer b tol) := by
  simp only [isEqualTolerant, ne_eq, not_true_eq_false, if_false, tolerantEqualInt]
  by_cases h1 : getInteger a - getInteger b ≤ intMin ∨ intMax < getInteger a - getInteger b
  · rw [if_pos h1]; exact ⟨_, rfl⟩
  · rw [if_neg h1, if_pos (by omega)]; exact ⟨_, rfl⟩

example : getInteger b!"2147483647" - getInteger b!"-1" = intMax + 1 := by decide +kernel

/-- The comparison of these two texts as numbers of kind `k` involves no undefined integer operation. -/
def Defined (k : NumKind) (a b : Str) : Prop :=
  k = .integer → intMin < getInteger a ∧ intMin < getInteger b ∧ |getInteger a - getInteger b| ≤ intMax

theorem Defined.diff {a b : Str} (h : Defined .integer a b) :
    intMin < getInteger a - getInteger b ∧ getInteger a - getInteger b ≤ intMax := by
  have := abs_le.mp (h rfl).2.2
  simp only [intMin, intMax] at *; omega

theorem Defined.symm {k : NumKind} {a b : Str} (h : Defined k a b) : Defined k b a := fun hk => by
  obtain ⟨h1, h2, h3⟩ := h hk
  exact ⟨h2, h1, by rwa [abs_sub_comm]⟩

/-- **C29.** Tolerant comparison is symmetric. -/
theorem C29_symmetric (env : NumEnv) (j k : NumKind) (a b : Str) (tol : ℚ) (h : Defined j a b) :
    isEqualTolerant env j a k b tol = isEqualTolerant env k b j a tol := by
  by_cases hjk : j = k
  · subst hjk
    simp only [isEqualTolerant, ne_eq, not_true_eq_false, if_false]
    cases j with
    | integer =>
      obtain ⟨h1, h2⟩ := h.diff
      obtain ⟨h3, h4⟩ := h.symm.diff
      obtain ⟨h5, h6, _⟩ := h rfl
      simp only
      rw [tolerantEqualInt_ok _ _ _ _ h5 h6 h1 h2, tolerantEqualInt_ok _ _ _ _ h6 h5 h3 h4, abs_sub_comm]
      simp only [or_comm]
    | float =>
      simp only [Except.ok.injEq]
      rw [Bool.eq_iff_iff, tolerantEqual_iff, tolerantEqual_iff, abs_sub_comm]; tauto
    | double =>
      simp only [Except.ok.injEq]
      rw [Bool.eq_iff_iff, tolerantEqual_iff, tolerantEqual_iff, abs_sub_comm]; tauto
    | boolean => simp only [eq_comm]
  · simp [isEqualTolerant, hjk, Ne.symm hjk]

/-- **C29.** Every number is accepted as equal to itself, for every tolerance. -/
theorem C29_reflexive (env : NumEnv) (k : NumKind) (a : Str) (tol : ℚ) (h : k = .integer → intMin < getInteger a) :
    isEqualTolerant env k a k a tol = .ok true := by
  have nn : ∀ x : ℚ, 0 ≤ |tol| * |x| := fun x => mul_nonneg (abs_nonneg _) (abs_nonneg _)
  simp only [isEqualTolerant, ne_eq, not_true_eq_false, if_false]
  cases k with
  | integer =>
    have := h rfl
    rw [tolerantEqualInt_ok _ _ _ _ this this (by simp [intMin]) (by simp [intMax])]
    simp only [sub_self, abs_zero, Int.cast_zero, or_self, Except.ok.injEq, decide_eq_true_iff]
    rw [show (((0 : ℚ)) : WithTop ℚ) = env.double.rnd 0 by rw [env.double.zero]; rfl]
    exact env.double.mono _ _ (mul_nonneg (abs_nonneg _) (by exact_mod_cast abs_nonneg _))
  | float =>
    simp only [Except.ok.injEq, tolerantEqual_iff, sub_self, abs_zero]
    refine Or.inl ?_
    rw [env.single.zero, ← env.double.zero]
    exact env.double.mono _ _ (nn _)
  | double =>
    simp only [Except.ok.injEq, tolerantEqual_iff, sub_self, abs_zero]
    exact Or.inl (env.double.mono _ _ (nn _))
  | boolean => simp

/-- **C29.** The sign of the tolerance does not matter. -/
theorem C29_sign_of_tolerance (env : NumEnv) (j k : NumKind) (a b : Str) (tol : ℚ) :
    isEqualTolerant env j a k b (-tol) = isEqualTolerant env j a k b tol := by
  simp only [isEqualTolerant, tolerantEqualInt, tolerantEqual, abs_neg]

/-- **C29.** A larger tolerance accepts everything a smaller one accepts. -/
theorem C29_monotone (env : NumEnv) (j k : NumKind) (a b : Str) (s t : ℚ) (hst : |s| ≤ |t|) (hdef : Defined j a b)
    (h : isEqualTolerant env j a k b s = .ok true) : isEqualTolerant env j a k b t = .ok true := by
  have mm : ∀ (r : Rounding) (x : ℚ), 0 ≤ x → r.rnd (|s| * x) ≤ r.rnd (|t| * x) :=
    fun r x hx => r.mono _ _ (mul_le_mul_of_nonneg_right hst hx)
  by_cases hjk : j = k
  · subst hjk
    simp only [isEqualTolerant, ne_eq, not_true_eq_false, if_false] at h ⊢
    cases j with
    | integer =>
      obtain ⟨h1, h2⟩ := hdef.diff
      obtain ⟨h5, h6, _⟩ := hdef rfl
      simp only at h ⊢
      rw [tolerantEqualInt_ok _ _ _ _ h5 h6 h1 h2] at h ⊢
      simp only [Except.ok.injEq, decide_eq_true_iff] at h ⊢
      exact h.imp (fun h => le_trans h (mm _ _ (by exact_mod_cast abs_nonneg _)))
        (fun h => le_trans h (mm _ _ (by exact_mod_cast abs_nonneg _)))
    | float =>
      simp only [Except.ok.injEq, tolerantEqual_iff] at h ⊢
      exact h.imp (fun h => le_trans h (mm _ _ (abs_nonneg _)))
        (Or.imp_left fun h => le_trans h (mm _ _ (abs_nonneg _)))
    | double =>
      simp only [Except.ok.injEq, tolerantEqual_iff] at h ⊢
      exact h.imp (fun h => le_trans h (mm _ _ (abs_nonneg _)))
        (Or.imp_left fun h => le_trans h (mm _ _ (abs_nonneg _)))
    | boolean => exact h
  · simp [isEqualTolerant, hjk] at h

/-- **C29, negative.** Tolerant comparison is not transitive: for exact arithmetic and every tolerance between 0 and 1/2 there are
numbers with u close to v, v close to w and u not close to w. -/
theorem C29_not_transitive (e : ℚ) (h0 : 0 < e) (h1 : e < 1 / 2) : ∃ u v w : ℚ,
    tolerantEqual .exact .exact 0 u v e = true ∧ tolerantEqual .exact .exact 0 v w e = true ∧
    tolerantEqual .exact .exact 0 u w e = false := by
  refine ⟨1, 1 + e, (1 + e) * (1 + e), ?_, ?_, ?_⟩
  · rw [tolerantEqual_iff]
    refine Or.inl (WithTop.coe_le_coe.mpr ?_)
    rw [abs_of_nonpos (by linarith), abs_of_pos h0, abs_one]; linarith
  · rw [tolerantEqual_iff]
    refine Or.inl (WithTop.coe_le_coe.mpr ?_)
    have hp : 0 < e * (1 + e) := mul_pos h0 (by linarith)
    rw [abs_of_nonpos (by linarith), abs_of_pos h0, abs_of_pos (by linarith)]; linarith
  · rw [← Bool.not_eq_true, tolerantEqual_iff]
    have hp : 0 < e * e := mul_pos h0 h0
    have hq : e * e < e * (1 / 2) := mul_lt_mul_of_pos_left h1 h0
    have hr : e * (e * e) < e * (1 / 2) := mul_lt_mul_of_pos_left (by linarith) h0
    rintro (h | h | h)
    · have h := WithTop.coe_le_coe.mp h
      rw [abs_of_nonpos (by linarith), abs_of_pos h0, abs_one] at h; linarith
    · have h := WithTop.coe_le_coe.mp h
      rw [abs_of_nonpos (by linarith), abs_of_pos h0, abs_of_pos (by linarith)] at h
      have : e * ((1 + e) * (1 + e)) = e + 2 * (e * e) + e * (e * e) := by ring
      have h4 : (1 + e) * (1 + e) = 1 + 2 * e + e * e := by ring
      rw [this, h4] at h
      linarith
    · exact absurd h.1 (not_lt.mpr (abs_nonneg _))

/-! ## C30 and C59: what the comparison of two measurements looks at -/

/-- Calls that change the tolerance of a comparison. -/
inductive Setting where
  | off
  | tolerance (t : ℚ)

/-- The effect of such a call. -/
def Setting.run (v : CompareVisitor) : Setting → CompareVisitor
  | .off => v.setToleranceOff
  | .tolerance t => v.setTolerance t

/-- The tolerance a user means by a call. -/
def Setting.meant : Setting → ℚ
  | .off => 0
  | .tolerance t => t

/-- **C30.** Whatever was set before, the tolerance in force is the one set last; initially it is 0. -/
theorem C30_last_setting_wins (v : CompareVisitor) (h : List Setting) (s : Setting) :
    ((h ++ [s]).foldl Setting.run v).getTolerance = s.meant ∧ ({} : CompareVisitor).getTolerance = 0 := by
  rw [List.foldl_append]
  generalize h.foldl Setting.run v = w
  refine ⟨?_, rfl⟩
  cases s with
  | off => rfl
  | tolerance t =>
    simp only [List.foldl_cons, List.foldl_nil, Setting.run, CompareVisitor.setTolerance, Setting.meant]
    by_cases ht : t = 0
    · rw [if_pos ht, ht]; rfl
    · rw [if_neg ht]; rfl

theorem visit_data (v : CompareVisitor) (env : NumEnv) (files : Files) (b : Meas) (t : DataM) :
    v.visit env files b (.data t) = match t.kind with
      | .num _ => v.compareNumeric env files b (.data t)
      | _ => compareGeneral files b (.data t) := by
  rcases t with ⟨_ | _ | (_ | _ | _ | _), n, c, e, z, s, d⟩ <;>
    simp only [CompareVisitor.visit, Meas.cls] <;>
    (repeat (rw [dispatch]; simp only [CompareVisitor.own, Cls.next]))

theorem visit_file (v : CompareVisitor) (env : NumEnv) (files : Files) (b : Meas) (t : FileM) :
    v.visit env files b (.file t) = b.isEqual files (.file t) := by
  simp only [CompareVisitor.visit, Meas.cls]
  repeat (rw [dispatch]; simp only [CompareVisitor.own, Cls.next, compareGeneral])

theorem compareNumeric_eq (v : CompareVisitor) (env : NumEnv) (files : Files) (b t : DataM) (j k : NumKind)
    (hb : b.kind = .num j) (ht : t.kind = .num k) :
    v.compareNumeric env files (.data b) (.data t) =
      if v.getTolerance ≠ 0 then (.data b, .data t, isEqualTolerant env j b.content k t.content v.getTolerance)
      else (Meas.data b).isEqual files (.data t) := by
  cases b; cases t; simp only at hb ht; subst hb ht; rfl

theorem compareNumeric_other (v : CompareVisitor) (env : NumEnv) (files : Files) (b t : DataM)
    (hb : ∀ j, b.kind ≠ .num j) :
    v.compareNumeric env files (.data b) (.data t) = (.data b, .data t, .ok false) := by
  rcases b with ⟨_ | _ | j, n, c, e, z, s, d⟩
  · rfl
  · rfl
  · exact absurd rfl (hb j)

/-- **C30.** When the tolerance in force is 0, two data measurements of any kinds pass the comparison exactly when their names,
their types and their bytes are equal: numbers are compared by their recorded text. -/
theorem C30_zero_tolerance_exact (v : CompareVisitor) (hv : v.getTolerance = 0) (env : NumEnv) (files : Files)
    (b t : DataM) (x y : Str) (hb : Holds b x) (ht : Holds t y) :
    v.visit env files (.data b) (.data t) =
      (.data b, .data t, .ok (decide (b.name = t.name ∧ b.kind = t.kind ∧ x = y))) := by
  rw [visit_data]
  cases hk : t.kind with
  | plain => rw [← hk]; simp only [hk]; rw [← hk]; exact C33_data_equal files b t x y hb ht
  | string => rw [← hk]; simp only [hk]; rw [← hk]; exact C33_data_equal files b t x y hb ht
  | num k =>
    simp only
    by_cases hj : ∃ j, b.kind = .num j
    · obtain ⟨j, hj⟩ := hj
      rw [compareNumeric_eq v env files b t j k hj hk, if_neg (by simp [hv]), ← hk]
      exact C33_data_equal files b t x y hb ht
    · rw [compareNumeric_other v env files b t (fun j h => hj ⟨j, h⟩)]
      have : b.kind ≠ .num k := fun h => hj ⟨k, h⟩
      simp [this]

example : ({} : CompareVisitor).visit ⟨.exact, .exact, 0, 0, fun _ => 0, fun _ => 0⟩ (fun _ => none)
    (.data { kind := .num .integer, name := b!"n", content := b!"7" })
    (.data { kind := .num .integer, name := b!"n", content := b!"07" }) =
    (.data { kind := .num .integer, name := b!"n", content := b!"7" },
      .data { kind := .num .integer, name := b!"n", content := b!"07" }, .ok false) := by
  rw [C30_zero_tolerance_exact _ rfl _ _ _ _ b!"7" b!"07" (Or.inr ⟨rfl, by decide, rfl⟩) (Or.inr ⟨rfl, by decide, rfl⟩)]
  decide

/-- **C59.** The tolerance affects numbers only: text and files compare under every tolerance as under tolerance 0. -/
theorem C59_tolerance_only_numbers (v : CompareVisitor) (env : NumEnv) (files : Files) (b t : Meas)
    (h : ∀ d k, t = .data d → d.kind ≠ .num k) : v.visit env files b t = b.isEqual files t := by
  cases t with
  | file f => exact visit_file v env files b f
  | data d =>
    rw [visit_data]
    cases hk : d.kind with
    | plain => rfl
    | string => rfl
    | num k => exact absurd hk (h d k rfl)

/-- **C59.** Under a tolerance other than 0 two numbers are compared by value alone: neither their names, their encodings, their
raw data nor the way the number is written matter; a number never equals a measurement that is no number, nor a number of another
kind. -/
theorem C59_tolerant_by_value (v : CompareVisitor) (hv : v.getTolerance ≠ 0) (env : NumEnv) (files : Files)
    (b t b' t' : DataM) (j k : NumKind) (hb : b.kind = .num j) (ht : t.kind = .num k)
    (hb' : b'.kind = .num j) (ht' : t'.kind = .num k)
    (hbv : getInteger b.content = getInteger b'.content ∧ getBoolean b.content = getBoolean b'.content ∧
      env.readSingle b.content = env.readSingle b'.content ∧ env.readDouble b.content = env.readDouble b'.content)
    (htv : getInteger t.content = getInteger t'.content ∧ getBoolean t.content = getBoolean t'.content ∧
      env.readSingle t.content = env.readSingle t'.content ∧ env.readDouble t.content = env.readDouble t'.content) :
    (v.visit env files (.data b) (.data t)).2.2 = (v.visit env files (.data b') (.data t')).2.2 ∧
    (∀ o : Meas, (∀ d i, o = .data d → d.kind ≠ .num i) → (v.visit env files o (.data t)).2.2 = .ok false) ∧
    (j ≠ k → (v.visit env files (.data b) (.data t)).2.2 = .ok false) := by
  refine ⟨?_, ?_, fun hjk => ?_⟩
  · rw [visit_data, visit_data, ht, ht']
    simp only
    rw [compareNumeric_eq v env files b t j k hb ht, compareNumeric_eq v env files b' t' j k hb' ht', if_pos hv, if_pos hv]
    simp only [isEqualTolerant, hbv, htv]
  · intro o ho
    rw [visit_data, ht]
    simp only
    cases o with
    | file f => rfl
    | data d => rw [compareNumeric_other v env files d t (fun i => ho d i rfl)]
  · rw [visit_data, ht]
    simp only
    rw [compareNumeric_eq v env files b t j k hb ht, if_pos hv]
    simp only [isEqualTolerant, hjk, ne_eq, not_false_eq_true, if_true]

example : getInteger b!"7" = getInteger b!" 07x" ∧ getBoolean b!"7" = getBoolean b!" 07x" := by decide +kernel

/-! ## C34 -/

/-- The class hierarchy as declared in tfMeasurement.h: each class with its bases, nearest first. -/
def lineage : Cls → List Cls
  | .measurement => [.measurement]
  | .measurementFile => [.measurementFile, .measurement]
  | .dataMeasurement => [.dataMeasurement, .measurement]
  | .textData => [.textData, .dataMeasurement, .measurement]
  | .plainText => [.plainText, .textData, .dataMeasurement, .measurement]
  | .stringText => [.stringText, .textData, .dataMeasurement, .measurement]
  | .numericData => [.numericData, .dataMeasurement, .measurement]
  | .integerNumeric => [.integerNumeric, .numericData, .dataMeasurement, .measurement]
  | .floatNumeric => [.floatNumeric, .numericData, .dataMeasurement, .measurement]
  | .doubleNumeric => [.doubleNumeric, .numericData, .dataMeasurement, .measurement]
  | .booleanNumeric => [.booleanNumeric, .numericData, .dataMeasurement, .measurement]

theorem dispatch_findSome {β : Type} (own : Cls → Option β) (c : Cls) : dispatch own c = (lineage c).findSome? own := by
  have step : ∀ c c', c.next = some c' → lineage c = c :: lineage c' := by
    intro c c' h; cases c <;> simp [Cls.next] at h <;> subst h <;> rfl
  have last : ∀ c, c.next = none → lineage c = [c] := by
    intro c h; cases c <;> simp [Cls.next] at h; rfl
  have main : ∀ n (c : Cls), c.depth ≤ n → dispatch own c = (lineage c).findSome? own := by
    intro n
    induction n with
    | zero =>
      intro c hc
      have : c = .measurement := by cases c <;> simp [Cls.depth] at hc; rfl
      subst this
      rw [dispatch]
      simp only [lineage, List.findSome?_cons, List.findSome?_nil]
      cases own .measurement <;> simp [Cls.next]
    | succ n ih =>
      intro c hc
      rw [dispatch]
      cases ho : own c with
      | some h =>
        cases hn : c.next with
        | none => simp [last c hn, ho]
        | some c' => simp [step c c' hn, ho]
      | none =>
        simp only
        split
        · next hn => simp [last c hn, ho]
        · next c' hn =>
          rw [ih c' (by have := Cls.next_depth hn; omega), step c c' hn]; simp [ho]
  exact main _ c (Nat.le_refl _)

/-- The handlers that accept a measurement, the most specific first: by the class hierarchy declared in tfMeasurement.h. -/
def handlersFor : Meas → List Cls
  | .file _ => [.measurementFile, .measurement]
  | .data d => match d.kind with
    | .plain => [.plainText, .textData, .dataMeasurement, .measurement]
    | .string => [.stringText, .textData, .dataMeasurement, .measurement]
    | .num .integer => [.integerNumeric, .numericData, .dataMeasurement, .measurement]
    | .num .float => [.floatNumeric, .numericData, .dataMeasurement, .measurement]
    | .num .double => [.doubleNumeric, .numericData, .dataMeasurement, .measurement]
    | .num .boolean => [.booleanNumeric, .numericData, .dataMeasurement, .measurement]

theorem lineage_cls (m : Meas) : lineage m.cls = handlersFor m := by
  rcases m with ⟨_ | _ | (_ | _ | _ | _), n, c, e, z, s, d⟩ | f <;> rfl

/-- **C34.** Visiting a measurement runs the overridden handler of the nearest class among those that accept it, for every
measurement and every set of overridden handlers; none runs only if the visitor overrides none of these handlers. -/
theorem C34_nearest_handler {β : Type} (own : Cls → Option β) (m : Meas) :
    (∀ h, dispatch own m.cls = some h ↔ ∃ before k after, handlersFor m = before ++ k :: after ∧ own k = some h ∧
      ∀ j ∈ before, own j = none) ∧
    (dispatch own m.cls = none ↔ ∀ j ∈ handlersFor m, own j = none) := by
  rw [dispatch_findSome, lineage_cls]
  refine ⟨fun h => ?_, by simp [List.findSome?_eq_none_iff]⟩
  rw [List.findSome?_eq_some_iff]

example : dispatch (fun c => if c = .textData ∨ c = .measurement then some c else none) (Meas.data { kind := .plain }).cls = some .textData := by
  rw [dispatch_findSome]; decide

/-- **C34.** A comparison of a number runs the handler for numbers, a comparison of anything else the general one; there is no
measurement for which no handler runs. -/
theorem C34_compare_handlers (v : CompareVisitor) (env : NumEnv) (files : Files) (b t : Meas) :
    v.visit env files b t = match t with
      | .data ⟨.num _, _, _, _, _, _, _⟩ => v.compareNumeric env files b t
      | _ => b.isEqual files t := by
  rcases t with ⟨_ | _ | k, n, c, e, z, s, d⟩ | f
  · rw [visit_data]; rfl
  · rw [visit_data]; rfl
  · rw [visit_data]
  · rw [visit_file]

end Verif.Measurement
