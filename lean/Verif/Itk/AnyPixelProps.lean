import Verif.Itk.AnyPixelSpec
import Verif.Itk.NamesShape

/-!
# Property C104: the image comparison for any type of pixels
-/

set_option linter.unusedSimpArgs false

namespace Verif.Itk.Any
open Verif.Itk.Spec (Inside Near count)
open _root_.Verif.Itk.Any.Spec

section
variable {V R O K : Type} [LinearOrder K] (X : PixelType V R O K)

theorem lt_iff (a b : Option K) : lt a b = true ↔ Exceeds a b := by
  cases a <;> cases b <;> simp [lt, Exceeds]

theorem le_iff (a b : Option K) : le a b = true ↔ Within b a := by
  cases a <;> cases b <;> simp [le, Within]

theorem mem_neighbourhood (test : Image V) (r : Nat) (p : Index) (hp : Inside test.region p) (v : V) :
    v ∈ neighbourhood test r p ↔ ∃ q, Inside test.region q ∧ Near r p q ∧ test.pixel q = v := by
  simp only [neighbourhood, offsets, List.mem_map, mem_pixels]
  constructor
  · rintro ⟨o, ho, rfl⟩
    obtain ⟨a, b⟩ := clamp_near test.region r p o hp ho
    exact ⟨_, a, b, rfl⟩
  · rintro ⟨q, h1, h2, rfl⟩
    obtain ⟨o, ho, hc⟩ := near_clamp test.region r p q h1 h2
    exact ⟨o, ho, by rw [hc]⟩

/-- The search ends above the threshold iff no value of the list is within it. -/
theorem searchLoop_above (thr2 : Option K) (c : V) : ∀ (ts : List V) (acc : R × Option K), lt thr2 acc.2 = true →
    (lt thr2 (searchLoop X thr2 c ts acc).2 = true ↔ ∀ t ∈ ts, ¬ Within thr2 (X.norm2 (X.sub c t))) := by
  intro ts
  induction ts with
  | nil => intro acc h; simp [searchLoop, h]
  | cons t ts ih =>
    rintro ⟨d, m⟩ h
    obtain ⟨x, y, rfl, hm, hxy⟩ := (lt_iff _ _).mp h
    simp only at hm
    subst hm
    have hyx : le (some y) (some x) = false := by simp [le, hxy]
    simp only [searchLoop, List.mem_cons, forall_eq_or_imp]
    cases hq : X.norm2 (X.sub c t) with
    | none =>
      have h2 : lt none (some y) = false := rfl
      simp only [h2, Bool.false_eq_true, if_false, hyx]
      rw [ih _ h]
      simp [Within]
    | some z =>
      by_cases hz : z ≤ x
      · have h1 : lt (some z) (some y) = true := by simpa [lt] using lt_of_le_of_lt hz hxy
        have h2 : le (some z) (some x) = true := by simp [le, hz]
        simp only [h1, if_true, h2]
        simp [lt, hz, Within]
      · have h2 : le (some z) (some x) = false := by simpa [le] using hz
        have hw : ¬ Within (some x) (some z) := by simpa [Within] using hz
        by_cases hy : z < y
        · have h1 : lt (some z) (some y) = true := by simp [lt, hy]
          simp only [h1, if_true, h2, Bool.false_eq_true, if_false, hw, not_false_eq_true, true_and]
          exact ih _ (by simpa [lt] using hz)
        · have h1 : lt (some z) (some y) = false := by simpa [lt] using hy
          simp only [h1, Bool.false_eq_true, if_false, hw, not_false_eq_true, true_and, hyx]
          exact ih _ h

/-- If the search ends above the threshold it has seen everything: the result is a difference to the initial value or to one of the list, and none is
smaller. -/
theorem searchLoop_closest (thr2 : Option K) (c : V) : ∀ (ts : List V) (t0 : V), lt thr2 (X.norm2 (X.sub c t0)) = true →
    lt thr2 (searchLoop X thr2 c ts (X.sub c t0, X.norm2 (X.sub c t0))).2 = true →
    ∃ t, t ∈ t0 :: ts ∧ searchLoop X thr2 c ts (X.sub c t0, X.norm2 (X.sub c t0)) = (X.sub c t, X.norm2 (X.sub c t)) ∧
      ∃ y, X.norm2 (X.sub c t) = some y ∧ ∀ t' ∈ t0 :: ts, ∀ y', X.norm2 (X.sub c t') = some y' → y ≤ y' := by
  intro ts
  induction ts with
  | nil =>
    intro t0 h0 _
    obtain ⟨x, y, -, hy, -⟩ := (lt_iff _ _).mp h0
    refine ⟨t0, by simp, rfl, y, hy, ?_⟩
    intro t' ht' y' hy'
    simp only [List.mem_singleton] at ht'
    subst ht'
    rw [hy] at hy'
    cases hy'
    exact le_rfl
  | cons t ts ih =>
    intro t0 h0 hend
    obtain ⟨x, y, hx, hy, hxy⟩ := (lt_iff _ _).mp h0
    have hnot := (searchLoop_above X thr2 c (t :: ts) _ h0).mp hend
    have hw := hnot t (by simp)
    simp only [searchLoop] at hend ⊢
    by_cases hlt : lt (X.norm2 (X.sub c t)) (X.norm2 (X.sub c t0)) = true
    · simp only [hlt, if_true] at hend ⊢
      have hle : le (X.norm2 (X.sub c t)) thr2 = false := by
        rw [Bool.eq_false_iff, ne_eq, le_iff]; exact hw
      simp only [hle, Bool.false_eq_true, if_false] at hend ⊢
      obtain ⟨z, y0, hz, hy0, hzy⟩ := (lt_iff _ _).mp hlt
      have ht : lt thr2 (X.norm2 (X.sub c t)) = true := by
        rw [lt_iff]
        refine ⟨x, z, hx, hz, ?_⟩
        by_contra hcon
        exact hw ⟨x, z, hx, hz, not_lt.mp hcon⟩
      obtain ⟨u, hu, he, w, hw1, hw2⟩ := ih t ht hend
      refine ⟨u, List.mem_cons_of_mem _ hu, he, w, hw1, ?_⟩
      intro t' ht' y' hy'
      rcases List.mem_cons.mp ht' with rfl | ht'
      · rw [hy0] at hy'
        cases hy'
        exact le_trans (hw2 t (by simp) z hz) hzy.le
      · exact hw2 t' ht' y' hy'
    · simp only [hlt, Bool.false_eq_true, if_false] at hend ⊢
      have hle : le (X.norm2 (X.sub c t0)) thr2 = false := by
        rw [hx, hy]
        simpa [le] using hxy
      simp only [hle, Bool.false_eq_true, if_false] at hend ⊢
      obtain ⟨u, hu, he, w, hw1, hw2⟩ := ih t0 h0 hend
      refine ⟨u, ?_, he, w, hw1, ?_⟩
      · rcases List.mem_cons.mp hu with h | h
        · simp [h]
        · simp [h]
      · intro t' ht' y' hy'
        simp only [List.mem_cons] at ht'
        rcases ht' with rfl | rfl | ht'
        · exact hw2 _ (by simp) y' hy'
        · have h1 := hw2 t0 (by simp) y hy
          refine le_trans h1 ?_
          by_contra hcon
          exact hlt ((lt_iff _ _).mpr ⟨y', y, hy', hy, not_le.mp hcon⟩)
        · exact hw2 t' (by simp [ht']) y' hy'

/-- Is the pixel counted? -/
def counted (P : Params K) (valid test : Image V) (p : Index) : Bool :=
  !(onBoundary P.radius test.region p && P.ignoreBoundary) && lt (X.square P.threshold) (pixelDifference X P valid test p).2

theorem counted_iff (P : Params K) (valid test : Image V) (p : Index) (hp : Inside test.region p) :
    counted X P valid test p = true ↔ Differs X P valid test p := by
  have hb := onBoundary_iff P.radius test.region p hp
  have hl : lt (X.square P.threshold) (pixelDifference X P valid test p).2 = true ↔
      Exceeds (X.square P.threshold) (distance2 X valid test p p) ∧
      ∀ q, Inside test.region q → Near P.radius p q → ¬ Within (X.square P.threshold) (distance2 X valid test p q) := by
    simp only [pixelDifference]
    by_cases h : lt (X.square P.threshold) (X.norm2 (X.sub (valid.pixel p) (test.pixel p))) = true
    · rw [if_pos h, searchLoop_above X _ _ _ _ h]
      constructor
      · intro ha
        refine ⟨(lt_iff _ _).mp h, fun q h1 h2 => ha _ ((mem_neighbourhood test P.radius p hp _).mpr ⟨q, h1, h2, rfl⟩)⟩
      · rintro ⟨_, ha⟩ t ht
        obtain ⟨q, h1, h2, rfl⟩ := (mem_neighbourhood test P.radius p hp _).mp ht
        exact ha q h1 h2
    · rw [if_neg h]
      constructor
      · intro ha; exact absurd ha h
      · rintro ⟨ha, _⟩; exact absurd ((lt_iff _ _).mpr ha) h
  simp only [counted, Bool.and_eq_true, Bool.not_eq_true', hl, Differs]
  refine and_congr_left fun _ => ?_
  cases P.ignoreBoundary
  · simp
  · simpa using hb

/-- What is written at a pixel. -/
def written (P : Params K) (valid test : Image V) (p : Index) : Option O :=
  if counted X P valid test p then X.cast (pixelDifference X P valid test p).1 else some (X.zero (valid.pixel p))

theorem step_eq (P : Params K) (valid test : Image V) (s : Shared O K) (t : Nat) (p : Index) :
    step X P valid test s (t, p) = match written X P valid test p with
      | none => .error (.ub "conversion of a difference out of range")
      | some o => .ok ⟨update s.out p o,
          if counted X P valid test p then update s.sums t (X.add (s.sums t) (X.root (pixelDifference X P valid test p).2)) else s.sums,
          if counted X P valid test p then update s.counts t (s.counts t + 1) else s.counts⟩ := by
  simp only [step, written, counted]
  by_cases hb : (onBoundary P.radius test.region p && P.ignoreBoundary) = true
  · simp [hb]
  · rw [if_neg hb]
    simp only [Bool.not_eq_true] at hb
    by_cases hc : lt (X.square P.threshold) (pixelDifference X P valid test p).2 = true
    · simp only [hc, hb, if_true, Bool.not_false, Bool.and_self]
      cases X.cast (pixelDifference X P valid test p).1 <;> rfl
    · simp [hc]

omit [LinearOrder K] in
theorem totalCount_eq (n : Nat) (s : Shared O K) : totalCount n s = ((List.range n).map s.counts).sum := by
  rw [totalCount, foldl_add_acc]; simp

/-- A run: it is defined iff all values written are, and then count and output are determined. -/
theorem run_spec (P : Params K) (valid test : Image V) (n : Nat) : ∀ (sched : Sched) (s : Shared O K), (∀ e ∈ sched, e.1 < n) →
    ((∀ p ∈ sched.map Prod.snd, written X P valid test p ≠ none) →
      ∃ s', run X P valid test s sched = .ok s' ∧
        totalCount n s' = totalCount n s + ((sched.map Prod.snd).filter (counted X P valid test)).length ∧
        (∀ p ∈ sched.map Prod.snd, written X P valid test p = some (s'.out p)) ∧
        ∀ p, p ∉ sched.map Prod.snd → s'.out p = s.out p) ∧
    ((∃ p ∈ sched.map Prod.snd, written X P valid test p = none) →
      run X P valid test s sched = .error (.ub "conversion of a difference out of range")) := by
  intro sched
  induction sched with
  | nil => intro s _; exact ⟨fun _ => ⟨s, rfl, by simp, by simp, by simp⟩, by simp⟩
  | cons e sched ih =>
    intro s hn
    obtain ⟨t, p⟩ := e
    have ht : t < n := hn (t, p) (by simp)
    have hn' : ∀ e ∈ sched, e.1 < n := fun e he => hn e (List.mem_cons_of_mem _ he)
    rw [run, step_eq]
    cases hw : written X P valid test p with
    | none =>
      refine ⟨fun h => absurd hw (h p (by simp)), fun _ => rfl⟩
    | some o =>
      simp only
      generalize hs1 : (Shared.mk (update s.out p o)
          (if counted X P valid test p then update s.sums t (X.add (s.sums t) (X.root (pixelDifference X P valid test p).2)) else s.sums)
          (if counted X P valid test p then update s.counts t (s.counts t + 1) else s.counts) : Shared O K) = s1
      have hcount : totalCount n s1 = totalCount n s + if counted X P valid test p then 1 else 0 := by
        subst hs1
        rw [totalCount_eq, totalCount_eq]
        by_cases hc : counted X P valid test p = true
        · simp only [hc, if_true]
          rw [sum_update]
          simp [ht]
        · simp [hc]
      obtain ⟨h1, h2⟩ := ih s1 hn'
      constructor
      · intro h
        obtain ⟨s', e1, e2, e3, e4⟩ := h1 (fun q hq => h q (List.mem_cons_of_mem _ hq))
        refine ⟨s', e1, ?_, ?_, ?_⟩
        · rw [e2, hcount]
          simp only [List.map_cons, List.filter_cons]
          split
          · simp only [List.length_cons]; omega
          · rfl
        · intro q hq
          by_cases hin : q ∈ sched.map Prod.snd
          · exact e3 q hin
          · have : q = p := by simpa [hin] using hq
            subst this
            rw [e4 _ hin, hw, ← hs1]
            simp [update]
        · intro q hq
          simp only [List.map_cons, List.mem_cons, not_or] at hq
          rw [e4 q hq.2, ← hs1]
          simp [update, hq.1]
      · rintro ⟨q, hq, hqn⟩
        refine h2 ⟨q, ?_, hqn⟩
        simp only [List.map_cons, List.mem_cons] at hq
        rcases hq with rfl | hq
        · rw [hw] at hqn; cases hqn
        · exact hq

/-- The value written at a pixel that differs is the difference to a closest one. -/
theorem written_closest (P : Params K) (valid test : Image V) (p : Index) (hp : Inside test.region p) (hd : Differs X P valid test p) :
    ∃ q, Closest X P.radius valid test p q ∧ written X P valid test p = X.cast (X.sub (valid.pixel p) (test.pixel q)) := by
  have hc := (counted_iff X P valid test p hp).mpr hd
  rw [written, if_pos hc]
  simp only [counted, Bool.and_eq_true] at hc
  have hc := hc.2
  simp only [pixelDifference] at hc ⊢
  have h0 : lt (X.square P.threshold) (X.norm2 (X.sub (valid.pixel p) (test.pixel p))) = true := (lt_iff _ _).mpr hd.2.1
  rw [if_pos h0] at hc ⊢
  obtain ⟨t, ht, he, y, hy, hmin⟩ := searchLoop_closest X _ _ _ _ h0 hc
  have hmem : ∀ q, Inside test.region q → Near P.radius p q → test.pixel q ∈ test.pixel p :: neighbourhood test P.radius p :=
    fun q h1 h2 => List.mem_cons_of_mem _ ((mem_neighbourhood test P.radius p hp _).mpr ⟨q, h1, h2, rfl⟩)
  obtain ⟨q, hq1, hq2, rfl⟩ : ∃ q, Inside test.region q ∧ Near P.radius p q ∧ test.pixel q = t := by
    rcases List.mem_cons.mp ht with rfl | ht
    · exact ⟨p, hp, near_self _ _, rfl⟩
    · exact (mem_neighbourhood test P.radius p hp _).mp ht
  refine ⟨q, ⟨hq1, hq2, y, hy, ?_⟩, by rw [he]⟩
  intro q' y' h1 h2 h3
  exact hmin _ (hmem q' h1 h2) y' h3

theorem written_zero (P : Params K) (valid test : Image V) (p : Index) (hp : Inside test.region p) (hd : ¬ Differs X P valid test p) :
    written X P valid test p = some (X.zero (valid.pixel p)) := by
  rw [written, if_neg (fun h => hd ((counted_iff X P valid test p hp).mp h))]

/-- **C104.** Whatever the type of the pixels, the number of threads and the schedule: the number of pixels with differences is the number of pixels of the
valid image for which the distance at the same place is too large and no value of the test image within the radius is close enough; the output image
contains, at these pixels, the difference to a closest value within the radius, and zero elsewhere. -/
theorem C104_result (P : Params K) (T : Threads O) (valid test : Image V) (hT : Covers T valid.region)
    (n : Nat) (out : Index → O) (h : filter X P T valid test = .ok (n, out)) :
    n = count valid.region (Differs X P valid test) ∧
    ∀ p, Inside valid.region p →
      (Differs X P valid test p → ∃ q, Closest X P.radius valid test p q ∧ X.cast (X.sub (valid.pixel p) (test.pixel q)) = some (out p)) ∧
      (¬ Differs X P valid test p → out p = X.zero (valid.pixel p)) := by
  rw [filter] at h
  by_cases hin : test.region.contains valid.region = true
  · rw [if_pos hin] at h
    obtain ⟨h1, h2⟩ := run_spec X P valid test T.n T.sched (before X T.memory) hT.2
    have hdef : ∀ p ∈ T.sched.map Prod.snd, written X P valid test p ≠ none := by
      intro p hp hw
      rw [h2 ⟨p, hp, hw⟩] at h
      cases h
    obtain ⟨s', e1, e2, e3, e4⟩ := h1 hdef
    rw [e1] at h
    simp only [Except.ok.injEq, Prod.mk.injEq] at h
    obtain ⟨hn, ho⟩ := h
    have h0 : totalCount T.n (before X T.memory) = 0 := by rw [totalCount_eq]; simp [before]
    constructor
    · rw [← hn, e2, h0, Nat.zero_add, (hT.1.filter _).length_eq]
      exact count_congr _ _ _ fun p hp => counted_iff X P valid test p (inside_of_contains _ _ _ hin ((mem_pixels _ _).mp hp))
    · intro p hp
      have hpt := inside_of_contains _ _ _ hin hp
      have hw := e3 p (hT.1.mem_iff.mpr ((mem_pixels _ _).mpr hp))
      rw [ho] at hw
      constructor
      · intro hd
        obtain ⟨q, hq, he⟩ := written_closest X P valid test p hpt hd
        exact ⟨q, hq, by rw [← he, hw]⟩
      · intro hd
        rw [written_zero X P valid test p hpt hd] at hw
        exact (Option.some.inj hw).symm
  · rw [if_neg hin] at h
    cases h

/-- **C104.** The comparison has a result if the valid image is in the test image and the differences to the closest values can be converted to the output type;
it throws if the valid image is not in the test image; and it is undefined if at some pixel that differs no difference to a closest value can be converted. -/
theorem C104_defined (P : Params K) (T : Threads O) (valid test : Image V) (hT : Covers T valid.region) :
    (test.region.contains valid.region = false → Throws (filter X P T valid test)) ∧
    (test.region.contains valid.region = true →
      ((∀ p q, Inside valid.region p → Differs X P valid test p → Closest X P.radius valid test p q →
          X.cast (X.sub (valid.pixel p) (test.pixel q)) ≠ none) → ∃ r, filter X P T valid test = .ok r) ∧
      ((∃ p, Inside valid.region p ∧ Differs X P valid test p ∧ ∀ q, Closest X P.radius valid test p q →
          X.cast (X.sub (valid.pixel p) (test.pixel q)) = none) → IsUB (filter X P T valid test))) := by
  obtain ⟨h1, h2⟩ := run_spec X P valid test T.n T.sched (before X T.memory) hT.2
  refine ⟨fun h => ?_, fun hin => ⟨fun h => ?_, ?_⟩⟩
  · rw [filter, if_neg (by simp [h])]
    exact ⟨_, rfl⟩
  · rw [filter, if_pos hin]
    obtain ⟨s', e1, -⟩ := h1 (fun p hp hw => by
      have hpv := (mem_pixels _ _).mp (hT.1.mem_iff.mp hp)
      have hpt := inside_of_contains _ _ _ hin hpv
      by_cases hd : Differs X P valid test p
      · obtain ⟨q, hq, he⟩ := written_closest X P valid test p hpt hd
        exact h p q hpv hd hq (by rw [← he, hw])
      · rw [written_zero X P valid test p hpt hd] at hw; cases hw)
    rw [e1]
    exact ⟨_, rfl⟩
  · rintro ⟨p, hp, hd, hq⟩
    rw [filter, if_pos hin]
    obtain ⟨q, hc, he⟩ := written_closest X P valid test p (inside_of_contains _ _ _ hin hp) hd
    rw [h2 ⟨p, hT.1.mem_iff.mpr ((mem_pixels _ _).mpr hp), by rw [he, hq q hc]⟩]
    exact ⟨_, rfl⟩

/-- **C104.** The result does not depend on the number of threads, the division of the image, the order of the pixels or the initial contents of the memory. -/
theorem C104_schedule_independent (P : Params K) (T T' : Threads O) (valid test : Image V) (hT : Covers T valid.region) (hT' : Covers T' valid.region) :
    (∀ f, filter X P T valid test = .error f → filter X P T' valid test = .error f) ∧
    ∀ n out, filter X P T valid test = .ok (n, out) →
      ∃ out', filter X P T' valid test = .ok (n, out') ∧ ∀ p, Inside valid.region p → out' p = out p := by
  have hmem : ∀ p, p ∈ T'.sched.map Prod.snd ↔ p ∈ T.sched.map Prod.snd := fun p => by rw [hT.1.mem_iff, hT'.1.mem_iff]
  have h0 : ∀ n m, totalCount n (before X m) = 0 := by intro n m; rw [totalCount_eq]; simp [before]
  obtain ⟨h1, h2⟩ := run_spec X P valid test T.n T.sched (before X T.memory) hT.2
  obtain ⟨h1', h2'⟩ := run_spec X P valid test T'.n T'.sched (before X T'.memory) hT'.2
  simp only [filter]
  by_cases hin : test.region.contains valid.region = true
  · simp only [if_pos hin]
    by_cases hw : ∃ p ∈ T.sched.map Prod.snd, written X P valid test p = none
    · have hw' : ∃ p ∈ T'.sched.map Prod.snd, written X P valid test p = none := by
        obtain ⟨p, hp, h⟩ := hw
        exact ⟨p, (hmem p).mpr hp, h⟩
      rw [h2 hw, h2' hw']
      exact ⟨fun f h => h, fun n out h => by cases h⟩
    · have hd : ∀ p ∈ T.sched.map Prod.snd, written X P valid test p ≠ none := fun p hp h => hw ⟨p, hp, h⟩
      obtain ⟨s, e1, e2, e3, -⟩ := h1 hd
      obtain ⟨s', e1', e2', e3', -⟩ := h1' (fun p hp => hd p ((hmem p).mp hp))
      rw [e1, e1']
      refine ⟨fun f h => (by cases h), fun n out h => ?_⟩
      simp only [Except.ok.injEq, Prod.mk.injEq] at h
      obtain ⟨hn, ho⟩ := h
      refine ⟨s'.out, ?_, ?_⟩
      · simp only [← hn]
        rw [e2, e2', h0, h0, ((hT.1.trans hT'.1.symm).filter _).length_eq]
      · intro p hp
        have hp := hT.1.mem_iff.mpr ((mem_pixels _ _).mpr hp)
        have a := e3 p hp
        have b := e3' p ((hmem p).mpr hp)
        rw [a, ho] at b
        exact (Option.some.inj b).symm
  · simp only [if_neg hin]
    exact ⟨fun f h => h, fun n out h => nomatch h⟩

/-- **C104.** `CompareImage` of images of the same region whose differences can be converted: the number of pixels with differences beyond the tolerated number. -/
theorem C104_compare (T : Threads O) (valid test : Image V) (intensity : Option K) (pixels radius : Nat) (hr : valid.region = test.region)
    (hT : Covers T valid.region) (hcast : ∀ d, X.cast d ≠ none) :
    compareImage X T test valid intensity pixels radius (Region.default test.region.length) =
      .ok (count valid.region (Differs X { threshold := intensity, radius := radius } valid test) - pixels) := by
  have hd : ¬ (Region.default test.region.length ≠ Region.default test.region.length) := by simp
  have hin : test.region.contains valid.region = true := by rw [hr]; exact contains_refl _
  rw [compareImage, if_neg hd, if_neg (by simp [hr])]
  obtain ⟨⟨n, out⟩, h⟩ := ((C104_defined X { threshold := intensity, radius := radius } T valid test hT).2 hin).1 (fun p q _ _ _ => hcast _)
  rw [h, finish, beyond, (C104_result X _ T valid test hT n out h).1]
  congr 1
  split <;> omega

/-- **C104.** Images of different sizes are reported as totally different, for every type of pixels and all tolerances. -/
theorem C104_sizes_differ (T : Threads O) (valid test : Image V) (intensity : Option K) (pixels radius : Nat) (hs : valid.region.size ≠ test.region.size) :
    compareImage X T test valid intensity pixels radius (Region.default test.region.length) = .ok ulongMax := by
  simp [compareImage, hs]

end
end Verif.Itk.Any
