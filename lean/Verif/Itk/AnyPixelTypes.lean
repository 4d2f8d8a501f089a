import Verif.Itk.AnyPixelProps

/-!
# Properties C104 and C105: scalar, vector, complex and `unsigned char` pixels
-/

set_option linter.unusedSimpArgs false

namespace Verif.Itk.Any
open Verif.Itk.Spec (Inside Near count exact)
open _root_.Verif.Itk.Any.Spec

/-! ## Scalars: the model of `Itk.Model` is an instance -/

theorem scalar_lt (a b : Dbl) : lt a b = a.lt b := by cases a <;> cases b <;> rfl
theorem scalar_le (a b : Dbl) : le a b = a.le b := by cases a <;> cases b <;> rfl

theorem scalar_search (A : Arith) (thr2 c : Dbl) : ∀ (ts : List Dbl) (acc : Dbl × Dbl),
    searchLoop (scalar A) thr2 c ts acc = Itk.searchLoop A thr2 c ts acc := by
  intro ts
  induction ts with
  | nil => intro acc; rfl
  | cons t ts ih =>
    rintro ⟨d, m⟩
    simp only [searchLoop, Itk.searchLoop, scalar_lt, scalar_le, ih]
    rfl

theorem scalar_difference (A : Arith) (P : Itk.Params) (valid test : Itk.Image) (p : Index) :
    pixelDifference (scalar A) ⟨P.threshold, P.radius, P.ignoreBoundary⟩ ⟨valid.region, valid.pixel⟩ ⟨test.region, test.pixel⟩ p =
      Itk.pixelDifference A P valid test p := by
  simp only [pixelDifference, Itk.pixelDifference, scalar_lt, scalar_search]
  rfl

theorem scalar_run (A : Arith) (P : Itk.Params) (valid test : Itk.Image) : ∀ (sched : Sched) (s : Itk.Shared),
    run (scalar A) ⟨P.threshold, P.radius, P.ignoreBoundary⟩ ⟨valid.region, valid.pixel⟩ ⟨test.region, test.pixel⟩ ⟨s.out, s.sums, s.counts⟩ sched =
      .ok ⟨(Itk.run A P valid test s sched).out, (Itk.run A P valid test s sched).sums, (Itk.run A P valid test s sched).counts⟩ := by
  intro sched
  induction sched with
  | nil => intro s; rfl
  | cons e sched ih =>
    intro s
    obtain ⟨t, p⟩ := e
    have hstep : step (scalar A) ⟨P.threshold, P.radius, P.ignoreBoundary⟩ ⟨valid.region, valid.pixel⟩ ⟨test.region, test.pixel⟩ ⟨s.out, s.sums, s.counts⟩ (t, p) =
        .ok ⟨(Itk.step A P valid test s (t, p)).out, (Itk.step A P valid test s (t, p)).sums, (Itk.step A P valid test s (t, p)).counts⟩ := by
      simp only [step, Itk.step, scalar_difference, scalar_lt]
      by_cases hb : (onBoundary P.radius test.region p && P.ignoreBoundary) = true
      · simp only [hb, if_true]; rfl
      · simp only [hb, if_false]
        by_cases hc : (A.square P.threshold).lt (Itk.pixelDifference A P valid test p).2 = true
        · simp only [show (scalar A).square = A.square from rfl, hc, if_true]; rfl
        · simp only [show (scalar A).square = A.square from rfl, hc, if_false]; rfl
    rw [run, hstep]
    simp only
    rw [ih]
    rfl

/-- **C104.** The comparison of images of `double`, as modelled for the command line, is the comparison of any type of pixels for scalars. -/
theorem C104_scalar (A : Arith) (T : Itk.Threads) (test baseline : Itk.Image) (intensity : Dbl) (pixels radius : Nat) (region : Region) :
    Itk.compareImage A T test baseline intensity pixels radius region =
      compareImage (scalar A) ⟨T.n, T.sched, T.memory⟩ ⟨test.region, test.pixel⟩ ⟨baseline.region, baseline.pixel⟩ intensity pixels radius region := by
  have hfilter : ∀ valid : Itk.Image, finish pixels (filter (scalar A) ⟨intensity, radius, false⟩ ⟨T.n, T.sched, T.memory⟩ ⟨valid.region, valid.pixel⟩ ⟨test.region, test.pixel⟩) =
      match Itk.filterCount A ⟨intensity, radius, false⟩ T valid test with
      | .error f => .error f
      | .ok n => .ok (if n < pixels then 0 else n - pixels) := by
    intro valid
    simp only [filter, Itk.filterCount]
    by_cases hin : test.region.contains valid.region = true
    · simp only [hin, if_true]
      have h := scalar_run A ⟨intensity, radius, false⟩ valid test T.sched (Itk.before T.memory)
      simp only at h
      rw [show before (scalar A) T.memory = ⟨(Itk.before T.memory).out, (Itk.before T.memory).sums, (Itk.before T.memory).counts⟩ from rfl, h]
      rfl
    · simp only [hin, if_false]; rfl
  simp only [Itk.compareImage, compareImage]
  have h1 := hfilter baseline
  have h2 := hfilter { baseline with region := test.region }
  simp only at h1 h2
  rw [h1, h2]
  rfl

theorem count_mono_inside (r : Region) (P Q : Index → Prop) (h : ∀ p, Inside r p → P p → Q p) : count r P ≤ count r Q := by
  classical
  rw [count, count, ← List.countP_eq_length_filter, ← List.countP_eq_length_filter]
  refine List.countP_mono_left fun p hp => ?_
  simp only [decide_eq_true_eq]
  exact h p ((mem_pixels _ _).mp hp)

/-! ## Vectors -/

/-- The squared norm of a vector of numbers is a number, at least as large as the square of each component (as computed), if rounding is monotone and does not
change what is rounded already. -/
theorem squaredNorm_ge (A : Arith) (hm : Monotone A.rnd) (hi : ∀ x, A.rnd (A.rnd x) = A.rnd x) (h0 : A.rnd 0 = 0) : ∀ (v : List ℚ) (a : ℚ), 0 ≤ a → A.rnd a = a →
    ∃ y, (v.map some).foldl (fun acc x => A.add acc (A.square x)) (some a) = some y ∧ a ≤ y ∧ ∀ x ∈ v, A.rnd (x * x) ≤ y := by
  intro v
  induction v with
  | nil => intro a _ _; exact ⟨a, rfl, le_rfl, by simp⟩
  | cons x v ih =>
    intro a ha hr
    have hx : 0 ≤ A.rnd (x * x) := by rw [← h0]; exact hm (mul_self_nonneg x)
    have h1 : a ≤ A.rnd (a + A.rnd (x * x)) := by
      conv_lhs => rw [← hr]
      exact hm (by linarith)
    have h2 : A.rnd (x * x) ≤ A.rnd (a + A.rnd (x * x)) := by
      conv_lhs => rw [← hi]
      exact hm (by linarith)
    obtain ⟨y, e1, e2, e3⟩ := ih (A.rnd (a + A.rnd (x * x))) (le_trans ha h1) (hi _)
    refine ⟨y, ?_, le_trans h1 e2, ?_⟩
    · rw [List.map_cons, List.foldl_cons]
      exact e1
    · intro z hz
      rcases List.mem_cons.mp hz with rfl | hz
      · exact le_trans h2 e2
      · exact e3 z hz

theorem zipWith_some (A : Arith) : ∀ c t : List ℚ, List.zipWith A.sub (c.map some) (t.map some) = (List.zipWith (fun a b => A.rnd (a - b)) c t).map some
  | [], _ => by simp
  | _ :: _, [] => by simp
  | a :: c, b :: t => by simp [zipWith_some A c t, Arith.sub]

/-- **C104.** For vectors of numbers the squared distance is, in exact arithmetic, the sum of the squares of the differences of the components. -/
theorem C104_vector_euclidean (valid test : Image (List Dbl)) (p q : Index) (c t : List ℚ) (hc : valid.pixel p = c.map some) (ht : test.pixel q = t.map some) :
    distance2 (vector exact) valid test p q = some ((List.zipWith (fun a b => (a - b) ^ 2) c t).sum) := by
  have key : ∀ (v : List ℚ) (a : ℚ), (v.map some).foldl (fun acc x => exact.add acc (exact.square x)) (some a) = some (a + (v.map (· ^ 2)).sum) := by
    intro v
    induction v with
    | nil => intro a; simp
    | cons x v ih =>
      intro a
      rw [List.map_cons, List.foldl_cons]
      simp only [exact, Arith.add, Arith.square, id] at ih ⊢
      rw [ih, List.map_cons, List.sum_cons]
      congr 1
      ring
  simp only [distance2, vector, hc, ht, zipWith_some, squaredNorm]
  rw [key, zero_add, List.map_zipWith]
  rfl

theorem add_none (A : Arith) : ∀ l : List Dbl, l.foldl (fun acc x => A.add acc (A.square x)) none = none
  | [] => rfl
  | x :: l => by
    rw [List.foldl_cons, show A.add none (A.square x) = none from rfl]
    exact add_none A l

theorem squaredNorm_nan (A : Arith) : ∀ (l : List Dbl) (a : Dbl), none ∈ l → l.foldl (fun acc x => A.add acc (A.square x)) a = none
  | x :: l, a, h => by
    rw [List.foldl_cons]
    rcases List.mem_cons.mp h with rfl | h
    · have : A.add a (A.square none) = none := by cases a <;> rfl
      rw [this]
      exact add_none A l
    · exact squaredNorm_nan A l _ h

/-- **C104.** Vectors of which one component is not a number are at no distance: such a pixel is never counted, whatever its other components. -/
theorem C104_vector_nan (A : Arith) (P : Params ℚ) (valid test : Image (List Dbl)) (p : Index) (k : Nat) (a b : Dbl)
    (ha : (valid.pixel p)[k]? = some a) (hb : (test.pixel p)[k]? = some b) (hnan : a = none ∨ b = none) : ¬ Differs (vector A) P valid test p := by
  rintro ⟨-, ⟨x, y, -, hy, -⟩, -⟩
  have hmem : (none : Dbl) ∈ List.zipWith A.sub (valid.pixel p) (test.pixel p) := by
    have : (List.zipWith A.sub (valid.pixel p) (test.pixel p))[k]? = some none := by
      rw [List.getElem?_zipWith, ha, hb]
      rcases hnan with rfl | rfl
      · rfl
      · cases a <;> rfl
    exact List.mem_of_getElem? this
  have := squaredNorm_nan A _ (some 0) hmem
  simp only [distance2, vector, squaredNorm] at hy
  rw [this] at hy
  cases hy

/-- The image of one component. -/
def component (k : Nat) (i : Image (List Dbl)) : Image Dbl := ⟨i.region, fun p => (i.pixel p)[k]?.getD none⟩

theorem component_ge (A : Arith) (hm : Monotone A.rnd) (hi : ∀ x, A.rnd (A.rnd x) = A.rnd x) (h0 : A.rnd 0 = 0) (valid test : Image (List Dbl)) (p q : Index)
    (c t : List ℚ) (hc : valid.pixel p = c.map some) (ht : test.pixel q = t.map some) (k : Nat) (hkc : k < c.length) (hkt : k < t.length) :
    ∃ x y, distance2 (scalar A) (component k valid) (component k test) p q = some x ∧ distance2 (vector A) valid test p q = some y ∧ x ≤ y := by
  obtain ⟨y, h1, -, h3⟩ := squaredNorm_ge A hm hi h0 (List.zipWith (fun a b => A.rnd (a - b)) c t) 0 le_rfl h0
  refine ⟨A.rnd (A.rnd (c[k] - t[k]) * A.rnd (c[k] - t[k])), y, ?_, ?_, ?_⟩
  · simp [distance2, scalar, component, hc, ht, hkc, hkt, Arith.sub, Arith.square]
  · simp only [distance2, vector, hc, ht, zipWith_some, squaredNorm, h1]
  · refine h3 _ ?_
    have : (List.zipWith (fun a b => A.rnd (a - b)) c t)[k]? = some (A.rnd (c[k] - t[k])) := by
      simp [List.getElem?_zipWith, hkc, hkt]
    exact List.mem_of_getElem? this

/-- **C104.** A tolerance for vectors is at least as strict as the same tolerance for each component: for images of vectors of numbers, of one length, a component alone
has at most as many pixels with differences as the vectors.  Rounding may be any that is monotone and does not change what is rounded already. -/
theorem C104_vector_components (A : Arith) (hm : Monotone A.rnd) (hi : ∀ x, A.rnd (A.rnd x) = A.rnd x) (h0 : A.rnd 0 = 0) (P : Params ℚ)
    (valid test : Image (List Dbl)) (n k : Nat) (hk : k < n) (hin : test.region.contains valid.region = true)
    (hv : ∀ p, Inside valid.region p → ∃ c : List ℚ, c.length = n ∧ valid.pixel p = c.map some)
    (ht : ∀ q, Inside test.region q → ∃ t : List ℚ, t.length = n ∧ test.pixel q = t.map some) :
    (∀ p, Inside valid.region p → Differs (scalar A) P (component k valid) (component k test) p → Differs (vector A) P valid test p) ∧
    count valid.region (Differs (scalar A) P (component k valid) (component k test)) ≤ count valid.region (Differs (vector A) P valid test) := by
  have main : ∀ p, Inside valid.region p → Differs (scalar A) P (component k valid) (component k test) p → Differs (vector A) P valid test p := by
    rintro p hp ⟨d1, ⟨b, y, hb, hy, hlt⟩, d3⟩
    obtain ⟨c, hcl, hc⟩ := hv p hp
    have dist : ∀ q, Inside test.region q → ∃ x y, distance2 (scalar A) (component k valid) (component k test) p q = some x ∧
        distance2 (vector A) valid test p q = some y ∧ x ≤ y := by
      intro q hq
      obtain ⟨t, htl, ht⟩ := ht q hq
      exact component_ge A hm hi h0 valid test p q c t hc ht k (by omega) (by omega)
    refine ⟨d1, ?_, ?_⟩
    · obtain ⟨x, y', e1, e2, e3⟩ := dist p (inside_of_contains _ _ _ hin hp)
      rw [hy] at e1
      cases e1
      exact ⟨b, y', hb, e2, lt_of_lt_of_le hlt e3⟩
    · rintro q hq hn ⟨b', y', hb', hy', hle⟩
      obtain ⟨x, y'', e1, e2, e3⟩ := dist q hq
      rw [hy'] at e2
      cases e2
      exact d3 q hq hn ⟨b', x, hb', e1, le_trans e3 hle⟩
  refine ⟨main, ?_⟩
  exact count_mono_inside _ _ _ main

/-- Vectors of exact numbers meet the hypotheses; the two components of (3, 4) are each within a tolerance of 4, the vector is not. -/
example : Monotone exact.rnd ∧ (∀ x, exact.rnd (exact.rnd x) = exact.rnd x) ∧ exact.rnd 0 = 0 := ⟨fun _ _ h => h, fun _ => rfl, rfl⟩

example : (compareImage (vector exact) ⟨1, [(0, [0])], fun _ => []⟩ ⟨[(0, 1)], fun _ => [some 3, some 4]⟩ ⟨[(0, 1)], fun _ => [some 0, some 0]⟩ (some 4) 0 0
      (Region.default 1) = .ok 1) ∧
    (compareImage (vector exact) ⟨1, [(0, [0])], fun _ => []⟩ ⟨[(0, 1)], fun _ => [some 3, some 4]⟩ ⟨[(0, 1)], fun _ => [some 0, some 0]⟩ (some 5) 0 0
      (Region.default 1) = .ok 0) ∧
    (compareImage (scalar exact) ⟨1, [(0, [0])], fun _ => none⟩ ⟨[(0, 1)], fun _ => some 4⟩ ⟨[(0, 1)], fun _ => some 0⟩ (some 4) 0 0 (Region.default 1) = .ok 0) := by
  decide +kernel

/-! ## Complex numbers -/

/-- **C104.** Complex numbers are compared as vectors of real and imaginary part, if rounding does not change what is rounded already. -/
theorem C104_complex (A : Arith) (hi : ∀ x, A.rnd (A.rnd x) = A.rnd x) (valid test : Image (Dbl × Dbl)) (p q : Index) :
    distance2 (complex A) valid test p q =
      distance2 (vector A) ⟨valid.region, fun p => [(valid.pixel p).1, (valid.pixel p).2]⟩ ⟨test.region, fun p => [(test.pixel p).1, (test.pixel p).2]⟩ p q := by
  simp only [distance2, complex, vector, squaredNorm, List.zipWith_cons_cons, List.zipWith_nil_left, List.foldl_cons, List.foldl_nil]
  have h : ∀ x : Dbl, A.add (some 0) (A.square x) = A.square x := by
    intro x
    cases x with
    | none => rfl
    | some x => simp [Arith.add, Arith.square, hi]
  rw [h]

/-! ## `unsigned char` -/

/-- **C105.** With a radius of 0, `CompareImage` of images of `unsigned char` of the same region: the difference, an `unsigned char` again, is negative where the test
image is brighter than the baseline, and converting it is undefined.  So the behaviour is defined iff the test image is nowhere brighter by more than the
tolerance, and then the result is the number of pixels that are darker by more than the tolerance, beyond the tolerated number. -/
theorem C105_byte (T : Threads UInt8) (valid test : Image UInt8) (intensity : ℚ) (h0 : 0 ≤ intensity) (pixels : Nat) (hr : valid.region = test.region)
    (hT : Covers T valid.region) :
    ((∃ p, Inside valid.region p ∧ intensity < (test.pixel p).toNat - (valid.pixel p).toNat) →
      IsUB (compareImage (byte exact) T test valid (some intensity) pixels 0 (Region.default test.region.length))) ∧
    ((∀ p, Inside valid.region p → ((test.pixel p).toNat : ℚ) - (valid.pixel p).toNat ≤ intensity) →
      compareImage (byte exact) T test valid (some intensity) pixels 0 (Region.default test.region.length) =
        .ok (count valid.region (fun p => intensity < (valid.pixel p).toNat - (test.pixel p).toNat) - pixels)) := by
  have hnear : ∀ p q : Index, Near 0 p q → q = p := by
    intro p
    induction p with
    | nil => intro q h; cases q <;> simp_all [Near]
    | cons i p ih =>
      intro q h
      cases q with
      | nil => simp [Near] at h
      | cons j q =>
        have h1 := h.1
        rw [abs_le] at h1
        rw [ih q h.2]
        congr 1
        push_cast at h1
        omega
  have hin : test.region.contains valid.region = true := by rw [hr]; exact contains_refl _
  have hdiff : ∀ p, Inside valid.region p → (Differs (byte exact) { threshold := some intensity, radius := 0 } valid test p ↔
      intensity < |((valid.pixel p).toNat : ℚ) - (test.pixel p).toNat|) := by
    intro p hp
    have hd : ∀ q, distance2 (byte exact) valid test p q = some ((((valid.pixel p).toNat : ℚ) - (test.pixel q).toNat) * (((valid.pixel p).toNat : ℚ) - (test.pixel q).toNat)) := fun q => rfl
    have ht : (byte exact).square (some intensity) = some (intensity * intensity) := rfl
    have hsq : ∀ d : ℚ, intensity * intensity < d * d ↔ intensity < |d| := by
      intro d
      rw [← abs_mul_abs_self d]
      constructor
      · intro h
        by_contra hc
        have := mul_le_mul (not_lt.mp hc) (not_lt.mp hc) (abs_nonneg d) h0
        linarith
      · intro h
        exact mul_self_lt_mul_self h0 h
    constructor
    · rintro ⟨-, ⟨b, y, hb, hy, hlt⟩, -⟩
      simp only [ht, hd, Option.some.injEq] at hb hy
      subst hb hy
      exact (hsq _).mp hlt
    · intro h
      refine ⟨fun h => (by cases h), ⟨_, _, ht, hd p, (hsq _).mpr h⟩, ?_⟩
      rintro q - hq ⟨b, y, hb, hy, hle⟩
      rw [hnear p q hq] at hy
      simp only [ht, hd, Option.some.injEq] at hb hy
      subst hb hy
      exact absurd ((hsq _).mpr h) (not_lt.mpr hle)
  have hclosest : ∀ p q, Closest (byte exact) 0 valid test p q → q = p := fun p q h => hnear p q h.2.1
  have hcmp : compareImage (byte exact) T test valid (some intensity) pixels 0 (Region.default test.region.length) =
      finish pixels (filter (byte exact) { threshold := some intensity, radius := 0 } T valid test) := by
    rw [compareImage, if_neg (by simp), if_neg (by simp [hr])]
  have hrange : ∀ a b : UInt8, ((a.toNat : ℚ) - b.toNat) < 256 ∧ ((a.toNat : ℚ) - b.toNat ≤ -1 ∨ 0 ≤ (a.toNat : ℚ) - b.toNat) := by
    intro a b
    have ha : a.toNat < 256 := a.toNat_lt
    have ha' : (a.toNat : ℚ) < 256 := by exact_mod_cast ha
    have hb : (0 : ℚ) ≤ b.toNat := by positivity
    refine ⟨by linarith, ?_⟩
    rcases Nat.lt_or_ge a.toNat b.toNat with h | h
    · left
      have : (a.toNat : ℚ) + 1 ≤ b.toNat := by exact_mod_cast h
      linarith
    · right
      have : (b.toNat : ℚ) ≤ a.toNat := by exact_mod_cast h
      linarith
  constructor
  · rintro ⟨p, hp, hlt⟩
    obtain ⟨w, hw⟩ := ((C104_defined (byte exact) { threshold := some intensity, radius := 0 } T valid test hT).2 hin).2 ⟨p, hp,
      (hdiff p hp).mpr (by rw [abs_sub_comm]; exact lt_of_lt_of_le hlt (le_abs_self _)), fun q hq => by
        rw [hclosest p q hq]
        have hneg : ¬ (-1 : ℚ) < ((valid.pixel p).toNat : ℚ) - (test.pixel p).toNat := by
          rcases (hrange (valid.pixel p) (test.pixel p)).2 with h | h
          · linarith
          · exfalso; linarith
        simp only [byte]
        rw [if_neg (fun h => hneg h.1)]⟩
    rw [hcmp, hw]
    exact ⟨w, rfl⟩
  · intro hle
    obtain ⟨⟨n, out⟩, h⟩ := ((C104_defined (byte exact) { threshold := some intensity, radius := 0 } T valid test hT).2 hin).1 (by
      intro p q hp hd hq
      rw [hclosest p q hq]
      have hd := (hdiff p hp).mp hd
      have hle := hle p hp
      have hr := hrange (valid.pixel p) (test.pixel p)
      have : 0 ≤ ((valid.pixel p).toNat : ℚ) - (test.pixel p).toNat := by
        by_contra hc
        rw [abs_of_neg (not_le.mp hc)] at hd
        linarith
      simp only [byte]
      rw [if_pos ⟨by linarith, hr.1⟩]
      simp)
    rw [hcmp, h, finish, beyond, (C104_result _ _ T valid test hT n out h).1]
    have hc : count valid.region (Differs (byte exact) { threshold := some intensity, radius := 0 } valid test) =
        count valid.region (fun p => intensity < (valid.pixel p).toNat - (test.pixel p).toNat) := by
      refine le_antisymm (count_mono_inside _ _ _ ?_) (count_mono_inside _ _ _ ?_)
      · intro p hp hd
        have hd := (hdiff p hp).mp hd
        have hle := hle p hp
        rcases lt_abs.mp hd with h | h
        · exact h
        · exfalso; linarith
      · intro p hp hd
        exact (hdiff p hp).mpr (lt_of_lt_of_le hd (le_abs_self _))
    rw [hc]
    congr 1
    split <;> omega

/-- One pixel of value 5 against one of value 0 and the other way round. -/
example : compareImage (byte exact) ⟨1, [(0, [0])], fun _ => 7⟩ ⟨[(0, 1)], fun _ => 5⟩ ⟨[(0, 1)], fun _ => 0⟩ (some 2) 0 0 (Region.default 1) =
      .error (.ub "conversion of a difference out of range") ∧
    compareImage (byte exact) ⟨1, [(0, [0])], fun _ => 7⟩ ⟨[(0, 1)], fun _ => 0⟩ ⟨[(0, 1)], fun _ => 5⟩ (some 2) 0 0 (Region.default 1) = .ok 1 := by
  decide +kernel

end Verif.Itk.Any
