import Verif.Itk.IeeeProps
import Verif.Itk.AnyPixelTypes
import Verif.Itk.ProgramProps
import Verif.Itk.IeeeRunSpec

/-!
# Property C111: runs over images of IEEE doubles
-/

set_option linter.unusedSimpArgs false

namespace Verif.Itk
open Verif.Decimal

/-- Rounding to `double`, with the sign, and without an upper limit. -/
def nearestDouble (q : ℚ) : ℚ := if q < 0 then -double.nearest |q| else double.nearest |q|

/-- The arithmetic of `double`s as a parameter of the model of `CompareImage` (itktfRegression.h:247-307), `RegressionTestImage` (itktfCompareVisitor.cxx:66-140) and the runs built on them.  Overflow is
not modelled here; `C111_model` says that this makes no difference. -/
def doubles (sqrt : ℚ → ℚ) : Arith := ⟨nearestDouble, sqrt⟩

theorem nearestDouble_mul (q : ℚ) : nearestDouble q * nearestDouble q = double.nearest |q| * double.nearest |q| := by
  rw [nearestDouble]; split <;> ring

theorem nearestDouble_nonneg {q : ℚ} (h : 0 ≤ q) : nearestDouble q = double.nearest q := by
  rw [nearestDouble, if_neg (not_lt.mpr h), abs_of_nonneg h]

theorem doubles_square (sqrt) (a b : ℚ) : (doubles sqrt).rnd ((doubles sqrt).rnd (a - b) * (doubles sqrt).rnd (a - b)) =
    double.nearest (double.nearest |a - b| * double.nearest |a - b|) := by
  show nearestDouble (nearestDouble _ * nearestDouble _) = _
  rw [nearestDouble_mul, nearestDouble_nonneg (mul_self_nonneg _)]

end Verif.Itk

namespace Verif.Itk.Any
open Verif.Itk.Spec (Inside Near count)
open Verif.Decimal.Spec (IsDouble)
open Verif.Decimal
open _root_.Verif.Itk.Any.Spec

/-- The pixel is a number or a NaN, and the number is given. -/
def Represents (x : Fp) (d : Dbl) : Prop := (∃ s, x = .nan s ∧ d = none) ∨ ∃ s m, x = .finite s m ∧ d = some (value s m)

/-- A magnitude with and without an upper limit. -/
def SameMagnitude (a : Dbl) (b : Option (WithTop ℚ)) : Prop :=
  (a = none ∧ b = none) ∨ ∃ x : ℚ, a = some x ∧ (x ≤ double.max ∧ b = some (x : WithTop ℚ) ∨ double.max < x ∧ b = some ⊤)

theorem nearest_idem (a : ℚ) (h : 0 ≤ a) : double.nearest (double.nearest a) = double.nearest a := by
  obtain ⟨m, e, hm, he, hn, -⟩ := double.nearest_form (by decide) h
  rw [hn]
  exact double.nearest_of_representable m e hm he

theorem one_le_max : (1 : ℚ) ≤ double.max := by decide +kernel

theorem sameMagnitude_distance (sqrt) {x y : Fp} {c t : Dbl} (hx : Represents x c) (hy : Represents y t) :
    SameMagnitude ((doubles sqrt).square ((doubles sqrt).sub c t)) (fpSquare (fpSub x y)) := by
  rcases hx with ⟨s, rfl, rfl⟩ | ⟨s, m, rfl, rfl⟩
  · left
    exact ⟨rfl, by cases y <;> rfl⟩
  · rcases hy with ⟨s', rfl, rfl⟩ | ⟨s', m', rfl, rfl⟩
    · left
      exact ⟨rfl, rfl⟩
    · right
      refine ⟨_, rfl, ?_⟩
      rw [doubles_square]
      show _ ∧ fpSquare (rounded _) = _ ∨ _ ∧ fpSquare (rounded _) = _
      generalize hz : value s m - value s' m' = z
      rcases fpSquare_rounded z with ⟨h, e⟩ | ⟨h, e⟩
      · rw [e, Format.round]
        by_cases h' : double.nearest (double.nearest |z| * double.nearest |z|) ≤ double.max
        · left; exact ⟨h', by rw [if_pos h']⟩
        · right; exact ⟨not_le.mp h', by rw [if_neg h']⟩
      · right
        refine ⟨?_, e⟩
        have h1 := one_le_max
        have h2 : double.nearest |z| ≤ double.nearest |z| * double.nearest |z| := by nlinarith
        have h3 := double_nearest_mono h2
        rw [nearest_idem _ (abs_nonneg _)] at h3
        exact lt_of_lt_of_le h h3

theorem sameMagnitude_lt {thr : ℚ} (ht : thr ≤ double.max) {a : Dbl} {b : Option (WithTop ℚ)} (h : SameMagnitude a b) :
    lt (some (thr : WithTop ℚ)) b = Dbl.lt (some thr) a := by
  rcases h with ⟨rfl, rfl⟩ | ⟨x, rfl, ⟨h, rfl⟩ | ⟨h, rfl⟩⟩
  · rfl
  · simp [lt, Dbl.lt]
  · have : thr < x := lt_of_le_of_lt ht h
    simp [lt, Dbl.lt, this]

theorem sameMagnitude_le {thr : ℚ} (ht : thr ≤ double.max) {a : Dbl} {b : Option (WithTop ℚ)} (h : SameMagnitude a b) :
    le b (some (thr : WithTop ℚ)) = Dbl.le a (some thr) := by
  rcases h with ⟨rfl, rfl⟩ | ⟨x, rfl, ⟨h, rfl⟩ | ⟨h, rfl⟩⟩
  · rfl
  · simp [le, Dbl.le]
  · have : ¬ x ≤ thr := not_le.mpr (lt_of_le_of_lt ht h)
    simp [le, Dbl.le, this]

theorem sameMagnitude_smaller {a a' : Dbl} {b b' : Option (WithTop ℚ)} (h : SameMagnitude a b) (h' : SameMagnitude a' b') :
    SameMagnitude (if a'.lt a = true then a' else a) (if lt b' b = true then b' else b) := by
  rcases h with ⟨rfl, rfl⟩ | ⟨x, rfl, ⟨h, rfl⟩ | ⟨h, rfl⟩⟩
  · have e1 : Dbl.lt a' none = false := by cases a' <;> rfl
    have e2 : lt b' none = false := by cases b' <;> rfl
    rw [e1, e2]
    exact Or.inl ⟨rfl, rfl⟩
  · rcases h' with ⟨rfl, rfl⟩ | ⟨y, rfl, ⟨h', rfl⟩ | ⟨h', rfl⟩⟩
    · exact Or.inr ⟨x, rfl, Or.inl ⟨h, rfl⟩⟩
    · by_cases hxy : y < x
      · simp only [lt, Dbl.lt, hxy, WithTop.coe_lt_coe, decide_true, if_true]
        exact Or.inr ⟨y, rfl, Or.inl ⟨h', rfl⟩⟩
      · simp only [lt, Dbl.lt, hxy, WithTop.coe_lt_coe, decide_false, Bool.false_eq_true, if_false]
        exact Or.inr ⟨x, rfl, Or.inl ⟨h, rfl⟩⟩
    · have hxy : ¬ y < x := not_lt.mpr (h.trans h'.le)
      have : ¬ ((⊤ : WithTop ℚ) < (x : WithTop ℚ)) := by simp
      simp only [lt, Dbl.lt, hxy, this, decide_false, Bool.false_eq_true, if_false]
      exact Or.inr ⟨x, rfl, Or.inl ⟨h, rfl⟩⟩
  · rcases h' with ⟨rfl, rfl⟩ | ⟨y, rfl, ⟨h', rfl⟩ | ⟨h', rfl⟩⟩
    · exact Or.inr ⟨x, rfl, Or.inr ⟨h, rfl⟩⟩
    · have hxy : y < x := lt_of_le_of_lt h' h
      have : ((y : WithTop ℚ) < (⊤ : WithTop ℚ)) := WithTop.coe_lt_top y
      simp only [lt, Dbl.lt, hxy, this, decide_true, if_true]
      exact Or.inr ⟨y, rfl, Or.inl ⟨h', rfl⟩⟩
    · have : ¬ ((⊤ : WithTop ℚ) < (⊤ : WithTop ℚ)) := lt_irrefl _
      simp only [lt, Dbl.lt, this, decide_false, Bool.false_eq_true, if_false]
      by_cases hxy : y < x
      · simp only [hxy, decide_true, if_true]
        exact Or.inr ⟨y, rfl, Or.inr ⟨h', rfl⟩⟩
      · simp only [hxy, decide_false, Bool.false_eq_true, if_false]
        exact Or.inr ⟨x, rfl, Or.inr ⟨h, rfl⟩⟩

theorem sameMagnitude_search (sqrt root) {thr : ℚ} (ht : thr ≤ double.max) {c : Dbl} {c' : Fp} (hc : Represents c' c) : ∀ {ts : List Dbl} {ts' : List Fp}, List.Forall₂ Represents ts' ts →
    ∀ (acc : Dbl × Dbl) (acc' : Fp × Option (WithTop ℚ)), SameMagnitude acc.2 acc'.2 →
      SameMagnitude (Itk.searchLoop (doubles sqrt) (some thr) c ts acc).2 (searchLoop (ieee root) (some (thr : WithTop ℚ)) c' ts' acc').2 := by
  intro ts ts' h
  induction h with
  | nil => intro acc acc' h; exact h
  | @cons t' t ts' ts ht' _ ih =>
    rintro ⟨d, m⟩ ⟨d', m'⟩ h
    simp only at h
    have h1 := sameMagnitude_distance sqrt hc ht'
    have h2 := sameMagnitude_smaller h h1
    simp only [searchLoop, Itk.searchLoop, show (ieee root).sub = fpSub from rfl, show (ieee root).norm2 = fpSquare from rfl]
    obtain ⟨a, ha⟩ : ∃ a, a = if ((doubles sqrt).square ((doubles sqrt).sub c t)).lt m = true then ((doubles sqrt).sub c t, (doubles sqrt).square ((doubles sqrt).sub c t)) else (d, m) := ⟨_, rfl⟩
    obtain ⟨a', ha'⟩ : ∃ a', a' = if lt (fpSquare (fpSub c' t')) m' = true then (fpSub c' t', fpSquare (fpSub c' t')) else (d', m') := ⟨_, rfl⟩
    have hs : SameMagnitude a.2 a'.2 := by
      have e1 : a.2 = if ((doubles sqrt).square ((doubles sqrt).sub c t)).lt m = true then (doubles sqrt).square ((doubles sqrt).sub c t) else m := by rw [ha]; split <;> rfl
      have e2 : a'.2 = if lt (fpSquare (fpSub c' t')) m' = true then fpSquare (fpSub c' t') else m' := by rw [ha']; split <;> rfl
      rw [e1, e2]; exact h2
    rw [← ha, ← ha', sameMagnitude_le ht hs]
    split
    · exact hs
    · exact ih _ _ hs

theorem sameMagnitude_pixel (sqrt root) {τ : ℚ} (hτ : double.nearest (τ * τ) ≤ double.max) (radius : Nat) (valid test : Itk.Image) (valid' test' : Image Fp)
    (hr : test'.region = test.region) (hv : ∀ p, Represents (valid'.pixel p) (valid.pixel p)) (ht : ∀ p, Represents (test'.pixel p) (test.pixel p)) (p : Index) :
    SameMagnitude (Itk.pixelDifference (doubles sqrt) ⟨some τ, radius, false⟩ valid test p).2 (pixelDifference (ieee root) ⟨some (τ : WithTop ℚ), radius, false⟩ valid' test' p).2 := by
  have h1 := sameMagnitude_distance sqrt (hv p) (ht p)
  have e1 : (doubles sqrt).square (some τ) = some (double.nearest (τ * τ)) := by
    show some (nearestDouble (τ * τ)) = _
    rw [nearestDouble_nonneg (mul_self_nonneg _)]
  have e2 : (ieee root).square (some (τ : WithTop ℚ)) = some ((double.nearest (τ * τ) : ℚ) : WithTop ℚ) := by
    show some (double.round (τ * τ)) = _
    rw [Format.round, if_pos hτ]
  simp only [pixelDifference, Itk.pixelDifference, e1, e2]
  simp only [show (ieee root).sub = fpSub from rfl, show (ieee root).norm2 = fpSquare from rfl]
  rw [sameMagnitude_lt hτ h1]
  split
  · refine sameMagnitude_search sqrt root hτ (hv p) ?_ _ _ h1
    simp only [neighbourhood, Itk.neighbourhood, hr]
    rw [List.forall₂_map_left_iff, List.forall₂_map_right_iff]
    exact List.forall₂_same.mpr fun o _ => ht _
  · exact h1

theorem run_counts (sqrt root) {τ : ℚ} (hτ : double.nearest (τ * τ) ≤ double.max) (radius : Nat) (valid test : Itk.Image) (valid' test' : Image Fp)
    (hr : test'.region = test.region) (hv : ∀ p, Represents (valid'.pixel p) (valid.pixel p)) (ht : ∀ p, Represents (test'.pixel p) (test.pixel p)) :
    ∀ (sched : Sched) (s : Itk.Shared) (s' : Shared Fp (WithTop ℚ)), s'.counts = s.counts →
      ∃ u, run (ieee root) ⟨some (τ : WithTop ℚ), radius, false⟩ valid' test' s' sched = .ok u ∧ u.counts = (Itk.run (doubles sqrt) ⟨some τ, radius, false⟩ valid test s sched).counts := by
  have e1 : (doubles sqrt).square (some τ) = some (double.nearest (τ * τ)) := by
    show some (nearestDouble (τ * τ)) = _
    rw [nearestDouble_nonneg (mul_self_nonneg _)]
  have e2 : (ieee root).square (some (τ : WithTop ℚ)) = some ((double.nearest (τ * τ) : ℚ) : WithTop ℚ) := by
    show some (double.round (τ * τ)) = _
    rw [Format.round, if_pos hτ]
  intro sched
  induction sched with
  | nil => intro s s' h; exact ⟨s', rfl, h⟩
  | cons e sched ih =>
    intro s s' h
    obtain ⟨t, p⟩ := e
    have hp := sameMagnitude_pixel sqrt root hτ radius valid test valid' test' hr hv ht p
    have hl := sameMagnitude_lt hτ hp
    rw [run, show Itk.run (doubles sqrt) ⟨some τ, radius, false⟩ valid test s ((t, p) :: sched) =
      Itk.run (doubles sqrt) ⟨some τ, radius, false⟩ valid test (Itk.step (doubles sqrt) ⟨some τ, radius, false⟩ valid test s (t, p)) sched from rfl]
    simp only [step, Itk.step, Bool.and_false, Bool.false_eq_true, if_false, e1, e2]
    rw [hl]
    by_cases hb : Dbl.lt (some (double.nearest (τ * τ))) (Itk.pixelDifference (doubles sqrt) ⟨some τ, radius, false⟩ valid test p).2 = true
    · simp only [hb, if_true, show (ieee root).cast = some from rfl]
      exact ih _ _ (by simp only [h])
    · simp only [hb, if_false]
      exact ih _ _ h

/-- **C111.** For images of `double`s without infinities and a tolerance below 2^512, a `double`, the comparison with the arithmetic used for runs (rounding, and no upper limit) is the comparison of IEEE
`double`s with overflow and underflow, for every region, every number of threads and every schedule. -/
theorem C111_model (sqrt root) (T : Itk.Threads) (T' : Threads Fp) (hn : T'.n = T.n) (hs : T'.sched = T.sched) (test valid : Itk.Image) (test' valid' : Image Fp)
    (hr : test'.region = test.region) (hr' : valid'.region = valid.region) (hv : ∀ p, Represents (valid'.pixel p) (valid.pixel p)) (ht : ∀ p, Represents (test'.pixel p) (test.pixel p))
    (τ : ℚ) (hd : IsDouble τ) (h0 : 0 ≤ τ) (h1 : τ < 2 ^ (512 : Int)) (pixels radius : Nat) (region : Region) :
    Itk.compareImage (doubles sqrt) T test valid (some τ) pixels radius region = compareImage (ieee root) T' test' valid' (some (τ : WithTop ℚ)) pixels radius region := by
  have hτ := no_overflow h0 (nearest_double h0 hd).1 h1
  have key : ∀ (v : Itk.Image) (v' : Image Fp), v'.region = v.region → (∀ p, Represents (v'.pixel p) (v.pixel p)) →
      finish pixels (filter (ieee root) ⟨some (τ : WithTop ℚ), radius, false⟩ T' v' test') =
        match Itk.filterCount (doubles sqrt) ⟨some τ, radius, false⟩ T v test with
        | .error f => .error f
        | .ok n => .ok (if n < pixels then 0 else n - pixels) := by
    intro v v' hvr hv
    simp only [filter, Itk.filterCount, hr, hvr]
    by_cases hin : test.region.contains v.region = true
    · simp only [hin, if_true]
      obtain ⟨u, hu, hc⟩ := run_counts sqrt root hτ radius v test v' test' hr hv ht T.sched (Itk.before T.memory) (before (ieee root) T'.memory) rfl
      rw [hs, hu]
      simp only [finish, totalCount, Itk.totalCount, hc, hn, beyond]
      rfl
    · simp only [hin, if_false]; rfl
  simp only [Itk.compareImage, compareImage, hr, hr']
  have k1 := key valid valid' hr' hv
  have k2 := key { valid with region := test.region } { valid' with region := test.region } rfl hv
  rw [k1, k2]
  rfl

end Verif.Itk.Any

namespace Verif.Itk
open Verif.Itk.Spec
open Verif.Regression Verif.Measurement Verif.Path
open Verif.Regression.Spec
open Verif.Decimal (double)
open Verif.Decimal.Spec (IsDouble)

theorem differs_iff (sqrt) (τ : ℚ) (radius : Nat) (valid test : Image) (p : Index) : Spec.Differs (doubles sqrt) τ radius valid test p ↔
    ∃ c x, valid.pixel p = some c ∧ test.pixel p = some x ∧ ∀ q y, Inside test.region q → Spec.Near radius p q → test.pixel q = some y →
      double.nearest (τ * τ) < double.nearest (double.nearest |c - y| * double.nearest |c - y|) := by
  have hτ : (doubles sqrt).rnd (τ * τ) = double.nearest (τ * τ) := nearestDouble_nonneg (mul_self_nonneg _)
  simp only [Spec.Differs, Unordered, Matches, doubles_square, hτ]
  constructor
  · rintro ⟨h1, h2⟩
    cases hc : valid.pixel p with
    | none => exact absurd (Or.inl hc) h1
    | some c =>
      cases hx : test.pixel p with
      | none => exact absurd (Or.inr hx) h1
      | some x =>
        refine ⟨c, x, rfl, rfl, fun q y hq hn hy => ?_⟩
        by_contra h
        exact h2 ⟨q, c, y, hq, hn, hc, hy, not_lt.mp h⟩
  · rintro ⟨c, x, hc, hx, h⟩
    refine ⟨by rw [hc, hx]; simp, ?_⟩
    rintro ⟨q, c', y, hq, hn, hc', hy, hle⟩
    rw [hc] at hc'
    cases hc'
    exact absurd hle (not_le.mpr (h q y hq hn hy))

/-- **C111.** In a run over images of `double`s, for a tolerance from 2^-511 on, a `double`: exactly the pixels differ whose difference from every value within the radius, rounded to `double`, is larger
than the tolerance. -/
theorem C111_differs (sqrt) (τ : ℚ) (hd : IsDouble τ) (h0 : 2 ^ (-511 : Int) ≤ τ) (radius : Nat) (valid test : Image) (p : Index) :
    Spec.Differs (doubles sqrt) τ radius valid test p ↔ FarApartRounded τ radius valid test p := by
  have hpos : 0 < τ := lt_of_lt_of_le (Decimal.two_pos _) h0
  obtain ⟨e, -⟩ := Any.nearest_double hpos.le hd
  rw [differs_iff]
  have key : ∀ z : ℚ, double.nearest (τ * τ) < double.nearest (double.nearest |z| * double.nearest |z|) ↔ τ < double.nearest |z| := by
    intro z
    constructor
    · intro h
      by_contra hc
      rw [not_lt] at hc
      exact absurd h (not_lt.mpr (Any.double_nearest_mono (mul_le_mul hc hc (double.nearest_nonneg _) hpos.le)))
    · intro h
      exact Any.square_lt h0 e (Any.nearest_idem _ (abs_nonneg _)) h
  simp only [key, FarApartRounded]
  constructor
  · rintro ⟨c, x, hc, hx, h⟩
    refine ⟨c, x, hc, hx, fun q y d hq hn hy hr => ?_⟩
    rw [← Any.nearest_eq (abs_nonneg _) hr]
    exact h q y hq hn hy
  · rintro ⟨c, x, hc, hx, h⟩
    exact ⟨c, x, hc, hx, fun q y hq hn hy => h q y _ hq hn hy (Numbers.Format.nearest_rounded double (abs_nonneg _))⟩

/-- **C111.** In a run over images of whole numbers (or of multiples of another power of two), with tolerance zero or from 2^-511 on: exactly the pixels differ whose difference from every value within the
radius is larger than the tolerance; the arithmetic of `double`s makes no difference. -/
theorem C111_whole_numbers (sqrt) (τ : ℚ) (hd : IsDouble τ) (h0 : τ = 0 ∨ 2 ^ (-511 : Int) ≤ τ) (radius : Nat) (s : Int) (hs : -537 ≤ s) (valid test : Image)
    (hv : WholeNumbers s valid) (ht : WholeNumbers s test) (p : Index) :
    Spec.Differs (doubles sqrt) τ radius valid test p ↔ FarApart τ radius valid test p := by
  have hdiff : ∀ {q c y}, valid.pixel p = some c → test.pixel q = some y → double.nearest |c - y| = |c - y| := by
    intro q c y hc hy
    obtain ⟨k, hk, e⟩ := hv p c hc
    exact Any.difference_exact (by omega) ⟨k, hk.le, e⟩ (ht q y hy)
  rcases h0 with rfl | h0
  · rw [differs_iff]
    have hz : double.nearest (0 * 0) = 0 := by decide +kernel
    refine exists_congr fun c => exists_congr fun x => and_congr_right fun hc => and_congr_right fun hx => forall_congr' fun q => forall_congr' fun y => ?_
    refine forall_congr' fun _ => forall_congr' fun _ => forall_congr' fun hy => ?_
    rw [hz]
    constructor
    · intro h
      rcases (abs_nonneg (c - y)).lt_or_eq with h' | h'
      · exact h'
      · rw [← h', show double.nearest 0 = 0 by decide +kernel, hz] at h
        exact absurd h (lt_irrefl _)
    · intro h
      refine lt_of_le_of_ne (double.nearest_nonneg _) (Any.seen ?_).symm
      obtain ⟨k, -, rfl⟩ := hv p c hc
      obtain ⟨j, -, rfl⟩ := ht q y hy
      rw [← sub_mul, abs_mul, abs_of_pos (Decimal.two_pos s)] at h ⊢
      have hkj : k ≠ j := by
        rintro rfl
        simp at h
      have h1 : (1 : ℚ) ≤ |(k : ℚ) - j| := by
        have : (1 : Int) ≤ |k - j| := Int.one_le_abs (sub_ne_zero.mpr hkj)
        exact_mod_cast this
      calc (2 : ℚ) ^ (-537 : Int) ≤ 2 ^ s := zpow_le_zpow_right₀ (by norm_num) hs
        _ = 1 * 2 ^ s := (one_mul _).symm
        _ ≤ _ := mul_le_mul_of_nonneg_right h1 (Decimal.two_pos _).le
  · rw [C111_differs sqrt τ hd h0]
    refine exists_congr fun c => exists_congr fun x => and_congr_right fun hc => and_congr_right fun hx => ?_
    constructor
    · intro h q y hq hn hy
      have := Numbers.Format.nearest_rounded double (abs_nonneg (c - y))
      rw [hdiff hc hy] at this
      exact h q y _ hq hn hy this
    · intro h q y d hq hn hy hr
      have := Any.nearest_eq (abs_nonneg _) hr
      rw [hdiff hc hy] at this
      rw [← this]
      exact h q y hq hn hy

theorem count_iff (r : Region) (P Q : Index → Prop) (h : ∀ p, P p ↔ Q p) : count r P = count r Q := by
  rw [show P = Q from funext fun p => propext (h p)]

/-- **C111.** In a run with the arithmetic of `double`s: images of whole numbers (or of multiples of another power of two) count as the same exactly if they are, up to the tolerances and without any
rounding. -/
theorem C111_alike (I : Toolkit) (sqrt) (hI : I.arith = doubles sqrt) (t : ImgTol) (hd : IsDouble t.intensity) (h0 : t.intensity = 0 ∨ 2 ^ (-511 : Int) ≤ t.intensity)
    (s : Int) (hs : -537 ≤ s) (valid test : Image) (hv : WholeNumbers s valid) (ht : WholeNumbers s test) : Alike I t valid test ↔ AlikeExactly t valid test := by
  rw [Alike, AlikeExactly, hI, count_iff _ _ _ (C111_whole_numbers sqrt t.intensity hd h0 t.radius s hs valid test hv ht)]

/-- **C111.** With the arithmetic of `double`s, the number of images that differ in two runs (C103) is, for images of whole numbers, the number of images that differ without any rounding. -/
theorem C111_runs (I : Toolkit) (sqrt) (hI : I.arith = doubles sqrt) (t : ImgTol) (hd : IsDouble t.intensity) (h0 : t.intensity = 0 ∨ 2 ^ (-511 : Int) ≤ t.intensity) :
    ∀ (xs ys : List (Str × Image)), (∀ x ∈ xs ++ ys, WholeNumbers 0 x.2) → unlikeImages I t xs ys = unlikeExactly t xs ys := by
  intro xs ys
  induction ys generalizing xs with
  | nil => intro _; cases xs <;> simp [unlikeImages, unlikeExactly]
  | cons y ys ih =>
    intro h
    cases xs with
    | nil => rw [unlikeImages, unlikeExactly, ih [] (fun x hx => h x (by simp at hx ⊢; exact Or.inr hx))]
    | cons x xs =>
      rw [unlikeImages, unlikeExactly, ih xs (fun x' hx => h x' (by simp at hx ⊢; tauto))]
      have ha := C111_alike I sqrt hI t hd h0 0 (by norm_num) x.2 y.2 (h x (by simp)) (h y (by simp))
      by_cases hc : x.1 = y.1 ∧ AlikeExactly t x.2 y.2
      · rw [if_pos hc, if_pos ⟨hc.1, ha.mpr hc.2⟩]
      · rw [if_neg hc, if_neg fun h => hc ⟨h.1, ha.mp h.2⟩]

/-- **C111.** `itktfImageCompare` with images of whole numbers and the arithmetic of `double`s, for every command line and every state of the files as in C110: it returns 0 exactly if every image is the
one recorded for it, up to the tolerances given for it and without any rounding. -/
theorem C111_program (I : Toolkit) (hI : Sound I) (sqrt) (hA : I.arith = doubles sqrt) (env : Env) (dec : Str → Option Loaded) (hR : ReadsFiles I dec) (henv : env.image = some I.imageEnv)
    (rd : Readers) (dataDir : Str) (fuel : Nat) (w : World) (prog : Str) (ps : List (Str × Str)) (args : List Str) (hopt : ∀ p ∈ ps, IsOption p.1) (href : ∀ p ∈ ps, ¬ Refused w.fs p)
    (hfuel : ps.length < fuel) (name file bytes : Str) (bs : List Meas) (hi : lastValue b!"-I" ps = some name) (hn : name ≠ []) (ho : lastValue b!"-O" ps = none)
    (hr : lastValue b!"-R" ps = none) (hfile : LookedUp w.fs name ((values b!"-P" ps).reverse ++ [dataDir]) file) (hopen : w.openRead file = some bytes) (hxml : env.readXML bytes = .ok bs)
    (hbs : ∀ b ∈ bs, ∀ j file, NamesImage j b file → ¬ LastComponent file []) (l : List (ImgTol × Str)) (hl : Reads rd.real rd.unsigned {} args l)
    (htol : ∀ x ∈ l, IsDouble x.1.intensity ∧ (x.1.intensity = 0 ∨ 2 ^ (-511 : Int) ≤ x.1.intensity ∧ x.1.intensity < 2 ^ (512 : Int)))
    (hwhole : ∀ n i, I.read w n = some i → WholeNumbers 0 i.image) :
    (imageCompare env rd dataDir fuel (prog :: (flat ps ++ args)) w).2 = .ok 0 ↔ AllPassExactly I w ((values b!"-P" ps).reverse ++ [dataDir]) bs l := by
  rw [C110_passes I hI env dec hR henv rd dataDir fuel w prog ps args hopt href hfuel name file bytes bs hi hn ho hr hfile hopen hxml hbs l hl, AllPass, AllPassExactly]
  refine forall_congr' fun k => forall_congr' fun t => forall_congr' fun f => forall_congr' fun hk => ?_
  obtain ⟨hd, h0⟩ := htol _ (List.mem_of_getElem? hk)
  refine exists_congr fun b => exists_congr fun rec => exists_congr fun last => exists_congr fun place => exists_congr fun v => exists_congr fun x => ?_
  refine and_congr_right fun _ => and_congr_right fun _ => and_congr_right fun _ => and_congr_right fun _ => and_congr_right fun hv => and_congr_right fun hx => ?_
  exact C111_alike I sqrt hA t hd (h0.imp_right And.left) 0 (by norm_num) _ _ (hwhole _ _ hv) (hwhole _ _ hx)

end Verif.Itk
