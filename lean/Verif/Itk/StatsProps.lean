import Verif.Itk.StatsLemmas

/-!
# Property C109: the statistics of the difference filter
-/

set_option exponentiation.threshold 1100

namespace Verif.Itk.Any
open Verif.Itk.Spec (Inside Near count)
open Verif.Decimal.Spec (IsDouble)
open Verif.Numbers.Spec (RoundedTo)
open Verif.Decimal
open _root_.Verif.Itk.Any.Spec

section
variable {V R O K : Type} [LinearOrder K] (X : PixelType V R O K)

/-- The smallest squared distance found at a pixel that differs. -/
theorem magnitude_closest (P : Params K) (valid test : Image V) (p : Index) (hp : Inside test.region p) (hd : Differs X P valid test p) :
    ∃ q, Closest X P.radius valid test p q ∧ (pixelDifference X P valid test p).2 = distance2 X valid test p q := by
  have hc := (counted_iff X P valid test p hp).mpr hd
  simp only [counted, Bool.and_eq_true] at hc
  have hc := hc.2
  simp only [pixelDifference] at hc ⊢
  have h0 : lt (X.square P.threshold) (X.norm2 (X.sub (valid.pixel p) (test.pixel p))) = true := (lt_iff _ _).mpr hd.2.1
  rw [if_pos h0] at hc ⊢
  obtain ⟨t, ht, he, y, hy, hmin⟩ := searchLoop_closest X _ _ _ _ h0 hc
  have hmem : ∀ q, Inside test.region q → Near P.radius p q → test.pixel q ∈ test.pixel p :: neighbourhood test P.radius p :=
    fun q h1 h2 => List.mem_cons_of_mem _ ((mem_neighbourhood test P.radius p hp _).mpr ⟨q, h1, h2, rfl⟩)
  obtain ⟨q, hq1, hq2, rfl⟩ : ∃ q, Inside test.region q ∧ Near P.radius p q ∧ test.pixel q = t := by
    rcases List.mem_cons.mp ht with rfl | ht
    · exact ⟨p, hp, near_self _ _, rfl⟩
    · exact (mem_neighbourhood test P.radius p hp _).mp ht
  refine ⟨q, ⟨hq1, hq2, y, hy, fun q' y' h1 h2 h3 => hmin _ (hmem q' h1 h2) y' h3⟩, by rw [he]; rfl⟩

theorem closest_same (radius : Nat) (valid test : Image V) (p q q' : Index) (h : Closest X radius valid test p q) (h' : Closest X radius valid test p q') :
    distance2 X valid test p q = distance2 X valid test p q' := by
  obtain ⟨a1, a2, y, hy, a3⟩ := h
  obtain ⟨b1, b2, y', hy', b3⟩ := h'
  rw [hy, hy', le_antisymm (a3 q' y' b1 b2 hy') (b3 q y a1 a2 hy)]

/-- A successful run of the filter object. -/
theorem update_ok {div : Option K → Nat → Option K} {T : Threads O} {valid test : Image V} {o o' : FilterObject K} {out : Index → O}
    (h : o.update X div T valid test = (o', .ok out)) : ∃ s, run X o.params valid test (before X T.memory) T.sched = .ok s ∧ test.region.contains valid.region = true ∧
      o' = { o with statistics := after X div T.n valid.region s } ∧ filter X o.params T valid test = .ok (totalCount T.n s, out) := by
  rw [FilterObject.update] at h
  split at h
  · next hc =>
    rcases hr : run X o.params valid test (before X T.memory) T.sched with f | s
    · rw [hr] at h; cases h
    · rw [hr] at h
      simp only [Prod.mk.injEq, Except.ok.injEq] at h
      refine ⟨s, rfl, hc, h.1.symm, ?_⟩
      rw [filter, if_pos hc, hr, ← h.2]
  · cases h

/-- **C109.** A run does not depend on what earlier runs have left behind; if it fails, the statistics are still those of the run before. -/
theorem C109_fresh (div : Option K → Nat → Option K) (T : Threads O) (valid test : Image V) (o : FilterObject K) (left : Statistics K) :
    (∀ out, (o.update X div T valid test).2 = .ok out → FilterObject.update X div T valid test { o with statistics := left } = o.update X div T valid test) ∧
    (∀ f, (o.update X div T valid test).2 = .error f → o.update X div T valid test = (o, .error f) ∧
      FilterObject.update X div T valid test { o with statistics := left } = ({ o with statistics := left }, .error f)) := by
  simp only [FilterObject.update]
  split
  · rcases run X o.params valid test (before X T.memory) T.sched with f | s
    · exact ⟨fun out h => (nomatch h), fun f' h => by cases h; exact ⟨rfl, rfl⟩⟩
    · exact ⟨fun out h => rfl, fun f' h => (nomatch h)⟩
  · exact ⟨fun out h => (nomatch h), fun f' h => by cases h; exact ⟨rfl, rfl⟩⟩

end

/-! ## `double` -/

theorem fpSquare_value {f : Fp} {x : ℚ} (h : fpSquare f = some (x : WithTop ℚ)) : 0 ≤ x ∧ double.nearest x = x := by
  cases f with
  | nan s => cases h
  | infinite s => cases h
  | finite s y =>
    have h : some (double.round (y * y)) = some (x : WithTop ℚ) := h
    rw [Format.round] at h
    split at h
    · have h : double.nearest (y * y) = x := by
        have := Option.some.inj h
        exact_mod_cast this
      obtain ⟨m, e, hm, he, hn, -⟩ := double.nearest_form (by decide) (mul_self_nonneg y)
      rw [← h]
      refine ⟨double.nearest_nonneg _, ?_⟩
      rw [hn]; exact double.nearest_of_representable m e hm he
    · cases h

/-- What the pixels that differ contribute. -/
theorem distances_root {P : Params (WithTop ℚ)} {valid test : Image Fp} {μ : Index → ℚ} (hμ : Distances (ieee fpRoot) P valid test μ) (p : Index)
    (hp : Inside valid.region p) (hpt : Inside test.region p) (hd : Differs (ieee fpRoot) P valid test p) :
    fpRoot (pixelDifference (ieee fpRoot) P valid test p).2 = some (μ p : WithTop ℚ) ∧ 0 < μ p ∧ double.nearest (μ p) = μ p := by
  obtain ⟨q, x, hq, hx, hr⟩ := hμ p hp hd
  obtain ⟨q', hq', e⟩ := magnitude_closest (ieee fpRoot) P valid test p hpt hd
  rw [e, closest_same _ _ _ _ _ _ _ hq' hq, hx]
  refine ⟨?_, root_double ?_ hr⟩
  · show some ((rootOf x : ℚ) : WithTop ℚ) = _
    rw [rootOf_eq hr]
  · obtain ⟨h0, hn⟩ := fpSquare_value hx
    obtain ⟨k, hk⟩ := multiple_min h0 hn
    have hx0 : 0 < x := by
      obtain ⟨k, u, -, -, h1, -⟩ := hr
      exact lt_of_lt_of_le (four_pos _) h1
    have hk1 : 1 ≤ k := by
      rcases Nat.eq_zero_or_pos k with rfl | h
      · rw [hk] at hx0; simp at hx0
      · exact h
    have : (1 : ℚ) ≤ k := by exact_mod_cast hk1
    rw [hk]
    have := mul_le_mul_of_nonneg_right this (two_pos (-1074)).le
    linarith

/-- The pixels that differ, with their threads. -/
def differing (P : Params (WithTop ℚ)) (T : Threads Fp) (valid test : Image Fp) : List (Nat × Index) := T.sched.filter fun e => counted (ieee fpRoot) P valid test e.2

/-- The sums of the threads and the total. -/
theorem total_eq {P : Params (WithTop ℚ)} {T : Threads Fp} {valid test : Image Fp} (hT : Covers T valid.region) (hc : test.region.contains valid.region = true)
    {μ : Index → ℚ} (hμ : Distances (ieee fpRoot) P valid test μ) {s : Shared Fp (WithTop ℚ)} (h : run (ieee fpRoot) P valid test (before (ieee fpRoot) T.memory) T.sched = .ok s) :
    (∀ t, s.sums t = addAll (some ((0 : ℚ) : WithTop ℚ)) (((differing P T valid test).filter fun e => e.1 = t).map fun e => μ e.2)) ∧
    (∀ e ∈ differing P T valid test, 0 < μ e.2 ∧ double.nearest (μ e.2) = μ e.2 ∧ e.1 < T.n) ∧
    (differing P T valid test).length = count valid.region (Differs (ieee fpRoot) P valid test) ∧
    ((differing P T valid test).map fun e => μ e.2).sum = total valid.region (Differs (ieee fpRoot) P valid test) μ := by
  have hin : ∀ e ∈ T.sched, Inside valid.region e.2 := fun e he => (mem_pixels _ _).mp (hT.1.mem_iff.mp (List.mem_map_of_mem he))
  have hroot : ∀ e ∈ differing P T valid test, fpRoot (pixelDifference (ieee fpRoot) P valid test e.2).2 = some (μ e.2 : WithTop ℚ) ∧ 0 < μ e.2 ∧ double.nearest (μ e.2) = μ e.2 := by
    intro e he
    obtain ⟨h1, h2⟩ := List.mem_filter.mp he
    have hp := hin e h1
    have hpt := inside_of_contains _ _ _ hc hp
    exact distances_root hμ e.2 hp hpt ((counted_iff _ _ _ _ _ hpt).mp h2)
  have hperm : ((differing P T valid test).map Prod.snd).Perm (valid.region.pixels.filter fun p => counted (ieee fpRoot) P valid test p) := by
    have : (differing P T valid test).map Prod.snd = (T.sched.map Prod.snd).filter fun p => counted (ieee fpRoot) P valid test p := by
      rw [differing, List.filter_map]; rfl
    rw [this]
    exact hT.1.filter _
  have hiff : ∀ p ∈ valid.region.pixels, counted (ieee fpRoot) P valid test p = true ↔ Differs (ieee fpRoot) P valid test p := fun p hp =>
    counted_iff _ _ _ _ _ (inside_of_contains _ _ _ hc ((mem_pixels _ _).mp hp))
  refine ⟨fun t => ?_, fun e he => ⟨(hroot e he).2.1, (hroot e he).2.2, hT.2 e (List.mem_filter.mp he).1⟩, ?_, ?_⟩
  · rw [run_sums _ _ _ _ _ _ _ h t, addAll, List.foldl_map, List.foldl_map]
    have : ∀ (l : List (Nat × Index)) (a : Option (WithTop ℚ)), (∀ e ∈ l, fpRoot (pixelDifference (ieee fpRoot) P valid test e.2).2 = some (μ e.2 : WithTop ℚ)) →
        l.foldl (fun x y => (ieee fpRoot).add x ((ieee fpRoot).root (pixelDifference (ieee fpRoot) P valid test y.2).2)) a =
          l.foldl (fun x y => magnitudeAdd x (some (μ y.2 : WithTop ℚ))) a := by
      intro l
      induction l with
      | nil => intro a _; rfl
      | cons e l ih =>
        intro a hl
        rw [List.foldl_cons, List.foldl_cons, ih _ fun x hx => hl x (List.mem_cons_of_mem _ hx)]
        congr 1
        show magnitudeAdd a (fpRoot _) = _
        rw [hl e (by simp)]
    exact this _ _ fun e he => (hroot e (List.mem_filter.mp he).1).1
  · rw [← count_congr _ _ _ hiff, ← hperm.length_eq, List.length_map]
  · have e1 : ((differing P T valid test).map fun e => μ e.2) = ((differing P T valid test).map Prod.snd).map μ := by rw [List.map_map]; rfl
    rw [e1, (hperm.map μ).sum_eq, total]
    congr 2
    apply List.filter_congr
    intro p hp
    by_cases hd : Differs (ieee fpRoot) P valid test p
    · simp [hd, (hiff p hp).mpr hd]
    · have : counted (ieee fpRoot) P valid test p = false := by
        rw [Bool.eq_false_iff]; exact fun h => hd ((hiff p hp).mp h)
      simp [hd, this]

theorem totalMagnitude_addAll {n : Nat} {s : Shared Fp (WithTop ℚ)} {S : Nat → ℚ} (h : ∀ t, s.sums t = some (S t : WithTop ℚ)) :
    totalMagnitude (ieee fpRoot) n s = addAll (some ((0 : ℚ) : WithTop ℚ)) ((List.range n).map S) := by
  rw [totalMagnitude, addAll, List.foldl_map]
  simp only [h]
  rfl

theorem sum_filter_le {l : List (Nat × Index)} {μ : Index → ℚ} (h : ∀ e ∈ l, 0 ≤ μ e.2) (t : Nat) :
    ((l.filter fun e => e.1 = t).map fun e => μ e.2).sum ≤ (l.map fun e => μ e.2).sum := by
  refine List.Sublist.sum_le_sum ((List.filter_sublist).map _) ?_
  intro x hx
  obtain ⟨e, he, rfl⟩ := List.mem_map.mp hx
  exact h e he

theorem sum_scaled {α : Type} (c : ℚ) (f : α → ℚ) : ∀ l : List α, (l.map fun a => c * f a).sum = c * (l.map f).sum := by
  intro l
  induction l with
  | nil => simp
  | cons a l ih => rw [List.map_cons, List.sum_cons, ih, List.map_cons, List.sum_cons, mul_add]

theorem nearest_zero_double : double.nearest 0 = 0 := double.nearest_zero

/-- **C109.** The number of pixels with differences and their total magnitude after a run, for every division into threads: the total has a relative error of at most one part in 2^53 for each
of these pixels and each thread (if it does not overflow), and it is zero exactly if there are none. -/
theorem C109_total (T : Threads Fp) (valid test : Image Fp) (hT : Covers T valid.region) (o o' : FilterObject (WithTop ℚ)) (out : Index → Fp)
    (h : o.update (ieee fpRoot) fpDivide T valid test = (o', .ok out)) (μ : Index → ℚ) (hμ : Distances (ieee fpRoot) o.params valid test μ)
    (hfit : (1 + 2 ^ (-53 : Int)) ^ (count valid.region (Differs (ieee fpRoot) o.params valid test) + T.n) * total valid.region (Differs (ieee fpRoot) o.params valid test) μ ≤ double.max) :
    o'.params = o.params ∧ o'.statistics.number = count valid.region (Differs (ieee fpRoot) o.params valid test) ∧
    ∃ x : ℚ, o'.statistics.total = some (x : WithTop ℚ) ∧
      (1 - 2 ^ (-53 : Int)) ^ (count valid.region (Differs (ieee fpRoot) o.params valid test) + T.n) * total valid.region (Differs (ieee fpRoot) o.params valid test) μ ≤ x ∧
      x ≤ (1 + 2 ^ (-53 : Int)) ^ (count valid.region (Differs (ieee fpRoot) o.params valid test) + T.n) * total valid.region (Differs (ieee fpRoot) o.params valid test) μ ∧
      (x = 0 ↔ count valid.region (Differs (ieee fpRoot) o.params valid test) = 0) := by
  obtain ⟨s, hrun, hc, rfl, hf⟩ := update_ok _ h
  have hnum := (C104_result _ _ _ _ _ hT _ _ hf).1
  refine ⟨rfl, hnum, ?_⟩
  obtain ⟨h1, h2, h3, h4⟩ := total_eq hT hc hμ hrun
  rw [← h3, ← h4] at hfit ⊢
  generalize differing o.params T valid test = l at *
  have hu := two_pos (-53)
  have hu1 : (2 : ℚ) ^ (-53 : Int) ≤ 1 / 2 := by norm_num
  have hm0 : (0 : ℚ) < 1 - 2 ^ (-53 : Int) := by norm_num
  have hm1 : (1 : ℚ) - 2 ^ (-53 : Int) ≤ 1 := by norm_num
  have hp1 : (1 : ℚ) ≤ 1 + 2 ^ (-53 : Int) := by norm_num
  generalize hE : (l.map fun e => μ e.2).sum = E at *
  have hE0 : 0 ≤ E := by
    rw [← hE]
    refine List.sum_nonneg fun x hx => ?_
    obtain ⟨e, he, rfl⟩ := List.mem_map.mp hx
    exact (h2 e he).1.le
  have hpow : ∀ {i j : Nat}, i ≤ j → (1 + (2 : ℚ) ^ (-53 : Int)) ^ i ≤ (1 + 2 ^ (-53 : Int)) ^ j := fun hij => pow_le_pow_right₀ hp1 hij
  have hpow' : ∀ {i j : Nat}, i ≤ j → (1 - (2 : ℚ) ^ (-53 : Int)) ^ j ≤ (1 - 2 ^ (-53 : Int)) ^ i := fun hij => pow_le_pow_of_le_one hm0.le hm1 hij
  have hthread : ∀ t, ∃ x : ℚ, s.sums t = some (x : WithTop ℚ) ∧ 0 ≤ x ∧ double.nearest x = x ∧
      (1 - 2 ^ (-53 : Int)) ^ l.length * ((l.filter fun e => e.1 = t).map fun e => μ e.2).sum ≤ x ∧
      x ≤ (1 + 2 ^ (-53 : Int)) ^ l.length * ((l.filter fun e => e.1 = t).map fun e => μ e.2).sum := by
    intro t
    have hle := sum_filter_le (fun e he => (h2 e he).1.le) t
    rw [hE] at hle
    have hlen : ((l.filter fun e => e.1 = t).map fun e => μ e.2).length ≤ l.length := by rw [List.length_map]; exact List.length_filter_le _ _
    have hall : ∀ x ∈ (l.filter fun e => e.1 = t).map fun e => μ e.2, 0 ≤ x ∧ double.nearest x = x := by
      intro x hx
      obtain ⟨e, he, rfl⟩ := List.mem_map.mp hx
      have := h2 e (List.mem_filter.mp he).1
      exact ⟨this.1.le, this.2.1⟩
    have h0 : 0 ≤ ((l.filter fun e => e.1 = t).map fun e => μ e.2).sum := List.sum_nonneg fun x hx => (hall x hx).1
    obtain ⟨x, e1, e2, e3, e4, e5⟩ := addAll_accuracy _ 0 le_rfl nearest_zero_double hall (by
      rw [zero_add]
      refine le_trans (mul_le_mul (hpow (hlen.trans (Nat.le_add_right _ T.n))) hle h0 (by positivity)) hfit)
    rw [zero_add] at e4 e5
    refine ⟨x, by rw [h1]; exact e1, e2, e3, le_trans ?_ e4, e5.trans ?_⟩
    · exact mul_le_mul_of_nonneg_right (hpow' hlen) h0
    · exact mul_le_mul_of_nonneg_right (hpow hlen) h0
  choose S hS using hthread
  have hsum : ((List.range T.n).map fun t => ((l.filter fun e => e.1 = t).map fun e => μ e.2).sum).sum = E := by
    rw [sum_threads (fun e => μ e.2) T.n l fun e he => (h2 e he).2.2, hE]
  have hlo : (1 - 2 ^ (-53 : Int)) ^ l.length * E ≤ ((List.range T.n).map S).sum := by
    rw [← hsum, ← sum_scaled]
    exact List.sum_le_sum fun t _ => (hS t).2.2.2.1
  have hhi : ((List.range T.n).map S).sum ≤ (1 + 2 ^ (-53 : Int)) ^ l.length * E := by
    rw [← hsum, ← sum_scaled]
    exact List.sum_le_sum fun t _ => (hS t).2.2.2.2
  obtain ⟨x, e1, e2, e3, e4, e5⟩ := addAll_accuracy ((List.range T.n).map S) 0 le_rfl nearest_zero_double
    (by
      intro x hx
      obtain ⟨t, -, rfl⟩ := List.mem_map.mp hx
      exact ⟨(hS t).2.1, (hS t).2.2.1⟩)
    (by
      rw [zero_add, List.length_map, List.length_range]
      refine le_trans (mul_le_mul_of_nonneg_left hhi (by positivity)) ?_
      rw [← mul_assoc, ← pow_add, Nat.add_comm T.n]
      exact hfit)
  rw [zero_add, List.length_map, List.length_range] at e4 e5
  have f1 : (1 - 2 ^ (-53 : Int)) ^ (l.length + T.n) * E ≤ x := by
    refine le_trans ?_ e4
    rw [Nat.add_comm l.length, pow_add, mul_assoc]
    exact mul_le_mul_of_nonneg_left hlo (pow_nonneg hm0.le _)
  have f2 : x ≤ (1 + 2 ^ (-53 : Int)) ^ (l.length + T.n) * E := by
    refine e5.trans ?_
    rw [Nat.add_comm l.length, pow_add, mul_assoc]
    exact mul_le_mul_of_nonneg_left hhi (by positivity)
  refine ⟨x, ?_, f1, f2, ?_⟩
  · show totalMagnitude (ieee fpRoot) T.n s = _
    rw [totalMagnitude_addAll fun t => (hS t).1, e1]
  · constructor
    · rintro rfl
      by_contra hne
      obtain ⟨e, l', rfl⟩ : ∃ e l', l = e :: l' := List.exists_cons_of_ne_nil (fun hn => hne (by rw [hn]; rfl))
      have hpos : 0 < E := by
        rw [← hE, List.map_cons, List.sum_cons]
        have a := (h2 e (by simp)).1
        have b : 0 ≤ (l'.map fun e => μ e.2).sum := List.sum_nonneg fun x hx => by
          obtain ⟨e', he, rfl⟩ := List.mem_map.mp hx
          exact (h2 e' (List.mem_cons_of_mem _ he)).1.le
        linarith
      have hp : (0 : ℚ) < (1 - 2 ^ (-53 : Int)) ^ ((e :: l').length + T.n) := pow_pos hm0 _
      have := mul_pos hp hpos
      linarith
    · intro hl
      have hE' : E = 0 := by rw [← hE, List.length_eq_zero_iff.mp hl]; rfl
      rw [hE', mul_zero] at f2
      exact le_antisymm f2 e2

/-- The total of multiples of a power of two is exact. -/
theorem total_exact {T : Threads Fp} {valid test : Image Fp} (hT : Covers T valid.region) {o o' : FilterObject (WithTop ℚ)} {out : Index → Fp}
    (h : o.update (ieee fpRoot) fpDivide T valid test = (o', .ok out)) {μ : Index → ℚ} (hμ : Distances (ieee fpRoot) o.params valid test μ) {s : Int} (hs : -1074 ≤ s)
    (hk : ∀ p, Inside valid.region p → Differs (ieee fpRoot) o.params valid test p → ∃ k : Nat, μ p = k * 2 ^ s)
    (hfit : total valid.region (Differs (ieee fpRoot) o.params valid test) μ ≤ 2 ^ 53 * 2 ^ s) (hmax : total valid.region (Differs (ieee fpRoot) o.params valid test) μ ≤ double.max) :
    o'.statistics.number = count valid.region (Differs (ieee fpRoot) o.params valid test) ∧
    o'.statistics.total = some ((total valid.region (Differs (ieee fpRoot) o.params valid test) μ : ℚ) : WithTop ℚ) := by
  obtain ⟨s', hrun, hc, rfl, hf⟩ := update_ok _ h
  refine ⟨(C104_result _ _ _ _ _ hT _ _ hf).1, ?_⟩
  obtain ⟨h1, h2, h3, h4⟩ := total_eq hT hc hμ hrun
  have hk : ∀ e ∈ differing o.params T valid test, ∃ k : Nat, μ e.2 = k * 2 ^ s := by
    intro e he
    obtain ⟨a, b⟩ := List.mem_filter.mp he
    have hp := (mem_pixels _ _).mp (hT.1.mem_iff.mp (List.mem_map_of_mem a))
    exact hk e.2 hp ((counted_iff _ _ _ _ _ (inside_of_contains _ _ _ hc hp)).mp b)
  rw [← h4] at hfit hmax ⊢
  generalize differing o.params T valid test = l at *
  generalize hE : (l.map fun e => μ e.2).sum = E at *
  have hthread : ∀ t, s'.sums t = some ((((l.filter fun e => e.1 = t).map fun e => μ e.2).sum : ℚ) : WithTop ℚ) := by
    intro t
    have hle := sum_filter_le (fun e he => (h2 e he).1.le) t
    rw [hE] at hle
    rw [h1, addAll_exact hs _ 0 ⟨0, by simp⟩ ?_ (by linarith) (by linarith), zero_add]
    intro x hx
    obtain ⟨e, he, rfl⟩ := List.mem_map.mp hx
    exact hk e (List.mem_filter.mp he).1
  have hsum : ((List.range T.n).map fun t => ((l.filter fun e => e.1 = t).map fun e => μ e.2).sum).sum = E := by
    rw [sum_threads (fun e => μ e.2) T.n l fun e he => (h2 e he).2.2, hE]
  show totalMagnitude (ieee fpRoot) T.n s' = _
  rw [totalMagnitude_addAll hthread, addAll_exact hs _ 0 ⟨0, by simp⟩ ?_ (by rw [hsum]; linarith) (by rw [hsum]; linarith), zero_add, hsum]
  intro x hx
  obtain ⟨t, -, rfl⟩ := List.mem_map.mp hx
  have : ∀ l' : List (Nat × Index), (∀ e ∈ l', ∃ k : Nat, μ e.2 = k * 2 ^ s) → ∃ k : Nat, (l'.map fun e => μ e.2).sum = k * 2 ^ s := by
    intro l'
    induction l' with
    | nil => intro _; exact ⟨0, by simp⟩
    | cons e l' ih =>
      intro hl
      obtain ⟨k, hk⟩ := ih fun e he => hl e (List.mem_cons_of_mem _ he)
      obtain ⟨j, hj⟩ := hl e (by simp)
      exact ⟨j + k, by rw [List.map_cons, List.sum_cons, hk, hj]; push_cast; ring⟩
  exact this _ fun e he => hk e (List.mem_filter.mp he).1

/-- **C109.** If the distances are whole multiples of a power of two, and there are not too many, the total is exact: it does not depend on the division into threads. -/
theorem C109_exact (T : Threads Fp) (valid test : Image Fp) (hT : Covers T valid.region) (o o' : FilterObject (WithTop ℚ)) (out : Index → Fp)
    (h : o.update (ieee fpRoot) fpDivide T valid test = (o', .ok out)) (μ : Index → ℚ) (hμ : Distances (ieee fpRoot) o.params valid test μ) (s : Int) (hs : -1074 ≤ s)
    (hk : ∀ p, Inside valid.region p → Differs (ieee fpRoot) o.params valid test p → ∃ k : Nat, μ p = k * 2 ^ s)
    (hfit : total valid.region (Differs (ieee fpRoot) o.params valid test) μ ≤ 2 ^ 53 * 2 ^ s) (hmax : total valid.region (Differs (ieee fpRoot) o.params valid test) μ ≤ double.max) :
    o'.statistics.total = some ((total valid.region (Differs (ieee fpRoot) o.params valid test) μ : ℚ) : WithTop ℚ) :=
  (total_exact hT h hμ hs hk hfit hmax).2

/-! ## The mean -/

theorem foldl_range : ∀ (l : List (Option (WithTop ℚ))) (a : Option (WithTop ℚ)), (∀ x : ℚ, a = some (x : WithTop ℚ) → 0 ≤ x ∧ x ≤ double.max) →
    ∀ x : ℚ, l.foldl magnitudeAdd a = some (x : WithTop ℚ) → 0 ≤ x ∧ x ≤ double.max := by
  intro l
  induction l with
  | nil => intro a h x hx; exact h x hx
  | cons b l ih =>
    intro a h x hx
    refine ih _ ?_ x hx
    intro y hy
    rcases a with _ | a
    · cases hy
    rcases b with _ | b
    · cases a <;> cases hy
    cases a with
    | top => cases hy
    | coe a =>
      cases b with
      | top => cases hy
      | coe b =>
        have hy : some (double.round (a + b)) = some (y : WithTop ℚ) := hy
        rw [Format.round] at hy
        split at hy
        · next hle =>
          have : double.nearest (a + b) = y := by exact_mod_cast Option.some.inj hy
          rw [← this]
          exact ⟨double.nearest_nonneg _, hle⟩
        · cases hy

theorem total_range {n : Nat} {s : Shared Fp (WithTop ℚ)} {x : ℚ} (h : totalMagnitude (ieee fpRoot) n s = some (x : WithTop ℚ)) : 0 ≤ x ∧ x ≤ double.max := by
  have e : totalMagnitude (ieee fpRoot) n s = ((List.range n).map s.sums).foldl magnitudeAdd (some ((0 : ℚ) : WithTop ℚ)) := by
    rw [totalMagnitude, List.foldl_map]; rfl
  rw [e] at h
  refine foldl_range _ _ ?_ x h
  intro y hy
  have : (0 : ℚ) = y := by exact_mod_cast Option.some.inj hy
  rw [← this]
  exact ⟨le_rfl, by decide +kernel⟩

/-- **C109.** The mean is the total divided by the number of all pixels (up to 2^53 of them), correctly rounded; infinite if the total is; and not a number if that is not one, or if there are no pixels. -/
theorem C109_mean (T : Threads Fp) (valid test : Image Fp) (o o' : FilterObject (WithTop ℚ)) (out : Index → Fp)
    (h : o.update (ieee fpRoot) fpDivide T valid test = (o', .ok out)) :
    (∀ x : ℚ, o'.statistics.total = some (x : WithTop ℚ) → valid.region.pixels ≠ [] → valid.region.pixels.length ≤ 2 ^ 53 →
      ∃ m : ℚ, o'.statistics.mean = some (m : WithTop ℚ) ∧ RoundedTo 53 (-1074) (x / valid.region.pixels.length) m) ∧
    (o'.statistics.total = some ⊤ → o'.statistics.mean = some ⊤) ∧ (o'.statistics.total = none → o'.statistics.mean = none) ∧
    (valid.region.pixels = [] → o'.statistics.total = some ((0 : ℚ) : WithTop ℚ) → o'.statistics.mean = none) := by
  obtain ⟨s, hrun, hc, rfl, hf⟩ := update_ok _ h
  simp only [after]
  refine ⟨?_, fun h => by rw [h]; rfl, fun h => by rw [h]; rfl, fun h0 h => by rw [h, h0]; rfl⟩
  intro x hx hne hlen
  obtain ⟨hx0, hx1⟩ := total_range hx
  have hpos : 0 < valid.region.pixels.length := List.length_pos_iff.mpr hne
  generalize valid.region.pixels.length = n at *
  have hn : double.nearest (n : ℚ) = n := by
    have := whole_double (s := 0) (by norm_num) hlen
    rwa [zpow_zero, mul_one] at this
  have hn1 : (1 : ℚ) ≤ n := by exact_mod_cast hpos
  have hq0 : 0 ≤ x / n := div_nonneg hx0 (by linarith)
  have hq1 : x / n ≤ double.max := le_trans (div_le_self hx0 hn1) hx1
  have hfit : double.nearest (x / n) ≤ double.max := by
    have := double_nearest_mono hq1
    rwa [show double.nearest double.max = double.max by decide +kernel] at this
  refine ⟨double.nearest (x / n), ?_, Numbers.Format.nearest_rounded double hq0⟩
  rw [hx]
  show (if n = 0 then (if x = 0 then none else some ⊤) else some (double.round (x / double.nearest n))) = _
  rw [if_neg (by omega), hn, Format.round, if_pos hfit]

/-! ## Images of whole numbers -/

theorem update_of_filter {V R O K : Type} [LinearOrder K] (X : PixelType V R O K) {div : Option K → Nat → Option K} {T : Threads O} {valid test : Image V} {o : FilterObject K} {res : Nat × (Index → O)}
    (h : filter X o.params T valid test = .ok res) : ∃ o', o.update X div T valid test = (o', .ok res.2) := by
  rw [filter] at h
  rw [FilterObject.update]
  split
  · next hc =>
    rw [if_pos hc] at h
    rcases hr : run X o.params valid test (before X T.memory) T.sched with f | s
    · rw [hr] at h; cases h
    · rw [hr] at h
      have h : Except.ok (totalCount T.n s, s.out) = Except.ok res := h
      cases h
      exact ⟨_, rfl⟩
  · next hc => rw [if_neg hc] at h; cases h

theorem whole_difference {s : Int} {a b : ℚ} (ha : ∃ k : Int, |k| < 2 ^ 52 ∧ a = k * 2 ^ s) (hb : ∃ k : Int, |k| < 2 ^ 52 ∧ b = k * 2 ^ s) :
    ∃ k : Nat, k < 2 ^ 53 ∧ |a - b| = k * 2 ^ s := by
  obtain ⟨k, hk, rfl⟩ := ha
  obtain ⟨j, hj, rfl⟩ := hb
  refine ⟨(k - j).natAbs, ?_, ?_⟩
  · rw [abs_lt] at hk hj; omega
  · rw [← sub_mul, abs_mul, abs_of_pos (two_pos s), Nat.cast_natAbs]; push_cast; rfl

/-- **C109.** Images of whole numbers below 2^52 in magnitude, or of multiples of another power of two from 2^-510 to 2^459: after a run, for every division into threads, the number of pixels with
differences is the number of pixels whose distance to the nearest value within the radius is larger than the tolerance, the total magnitude is the exact sum of these distances (if it is at most 2^53 units), and the
mean is that sum divided by the number of all pixels, correctly rounded. -/
theorem C109_whole (T : Threads Fp) (r : Region) (hT : Covers T r) (s : Int) (hs0 : -510 ≤ s) (hs1 : s ≤ 459) (v w : Index → ℚ) (hv : ∀ p, ∃ k : Int, |k| < 2 ^ 52 ∧ v p = k * 2 ^ s)
    (hw : ∀ p, ∃ k : Int, |k| < 2 ^ 52 ∧ w p = k * 2 ^ s) (τ : ℚ) (hτ : IsDouble τ) (h0 : 0 ≤ τ) (h1 : τ < 2 ^ (512 : Int)) (radius : Nat) (left : Statistics (WithTop ℚ)) (δ : Index → ℚ)
    (hδ : ∀ p, Inside r p → (∃ q, Inside r q ∧ Near radius p q ∧ δ p = |v p - w q|) ∧ ∀ q, Inside r q → Near radius p q → δ p ≤ |v p - w q|)
    (hfit : total r (fun p => τ < δ p) δ ≤ 2 ^ 53 * 2 ^ s) :
    ∃ out st, FilterObject.update (ieee fpRoot) fpDivide T (finite r v) (finite r w) ⟨{ threshold := some (τ : WithTop ℚ), radius := radius }, left⟩ =
        (⟨{ threshold := some (τ : WithTop ℚ), radius := radius }, st⟩, .ok out) ∧
      st.number = count r (fun p => τ < δ p) ∧ st.total = some ((total r (fun p => τ < δ p) δ : ℚ) : WithTop ℚ) ∧
      (r.pixels ≠ [] → r.pixels.length ≤ 2 ^ 53 → ∃ m : ℚ, st.mean = some (m : WithTop ℚ) ∧ RoundedTo 53 (-1074) (total r (fun p => τ < δ p) δ / r.pixels.length) m) := by
  obtain ⟨P, hP⟩ : ∃ P : Params (WithTop ℚ), P = { threshold := some (τ : WithTop ℚ), radius := radius } := ⟨_, rfl⟩
  rw [← hP]
  have hlow : (2 : ℚ) ^ (-510 : Int) ≤ 2 ^ s := zpow_le_zpow_right₀ (by norm_num) hs0
  have hhalf : (2 : ℚ) ^ (-511 : Int) < 2 ^ (-510 : Int) := zpow_lt_zpow_right₀ (by norm_num) (by norm_num)
  have hexact : ∀ p q, double.nearest |v p - w q| = |v p - w q| := fun p q => by
    obtain ⟨k, hk, e⟩ := hv p
    exact difference_exact (by omega) ⟨k, hk.le, e⟩ (hw q)
  have hunit : ∀ p q, |v p - w q| = 0 ∨ 2 ^ s ≤ |v p - w q| := by
    intro p q
    obtain ⟨k, -, e⟩ := whole_difference (hv p) (hw q)
    rw [e]
    rcases Nat.eq_zero_or_pos k with rfl | hk
    · left; simp
    · right
      have : (1 : ℚ) ≤ k := by exact_mod_cast hk
      have := mul_le_mul_of_nonneg_right this (two_pos s).le
      linarith
  -- the pixels with differences
  have hdiff : ∀ p, Inside r p → (Differs (ieee fpRoot) P (finite r v) (finite r w) p ↔ τ < δ p) := by
    intro p hp
    obtain ⟨⟨q0, hq0, hn0, e0⟩, hmin⟩ := hδ p hp
    constructor
    · intro h
      by_contra hc
      rw [not_lt] at hc
      subst hP
      exact C106_tolerated fpRoot r r v w τ h0 hτ radius p q0 hp hq0 hn0 (by rw [← e0]; exact hc) h
    · intro hlt
      have hd : ∀ q, RoundedTo 53 (-1074) |v p - w q| |v p - w q| := fun q => by
        have := Numbers.Format.nearest_rounded double (abs_nonneg (v p - w q))
        rwa [hexact] at this
      by_cases hsmall : 2 ^ (-511 : Int) ≤ τ
      · subst hP
        exact (C106_exact fpRoot r r v w τ hτ hsmall h1 radius p hp _ hd).mpr fun q hq hn => lt_of_lt_of_le hlt (hmin q hq hn)
      · rw [not_le] at hsmall
        have hτ' : IsDouble (2 ^ (-511 : Int)) := ⟨1, -511, by norm_num, by norm_num, by norm_num, by push_cast; ring⟩
        subst hP
        refine differs_antitone fpRoot r r v w τ _ h0 hsmall.le radius p hp
          ((C106_exact fpRoot r r v w _ hτ' le_rfl (zpow_lt_zpow_right₀ (by norm_num) (by norm_num)) radius p hp _ hd).mpr fun q hq hn => ?_)
        rcases hunit p q with h | h
        · have := hmin q hq hn
          rw [h] at this
          linarith
        · linarith
  -- their distances
  have hsq : ∀ p q, distance2 (ieee fpRoot) (finite r v) (finite r w) p q = some ((double.nearest (|v p - w q| * |v p - w q|) : ℚ) : WithTop ℚ) := by
    intro p q
    have hlt : |v p - w q| < 2 ^ (512 : Int) := by
      obtain ⟨k, hk, e⟩ := whole_difference (hv p) (hw q)
      have h2 : (k : ℚ) < 2 ^ (53 : Int) := by exact_mod_cast hk
      rw [e]
      calc (k : ℚ) * 2 ^ s < 2 ^ (53 : Int) * 2 ^ s := mul_lt_mul_of_pos_right h2 (two_pos s)
        _ = 2 ^ (53 + s) := by rw [← zpow_add₀ (by norm_num)]
        _ ≤ _ := zpow_le_zpow_right₀ (by norm_num) (by omega)
    have hfit := no_overflow (abs_nonneg _) (hexact p q) hlt
    rw [distance2_finite]
    rcases fpSquare_rounded (v p - w q) with ⟨-, h⟩ | ⟨h, -⟩
    · rw [h, hexact, Format.round, if_pos hfit]
    · exfalso
      rw [hexact] at h
      have : (2 : ℚ) ^ (512 : Int) ≤ double.max := by decide +kernel
      linarith
  have hμ : Distances (ieee fpRoot) P (finite r v) (finite r w) δ := by
    intro p hp hd
    have hlt := (hdiff p hp).mp hd
    obtain ⟨⟨q0, hq0, hn0, e0⟩, hmin⟩ := hδ p hp
    refine ⟨q0, _, ⟨hq0, by subst hP; exact hn0, _, hsq p q0, ?_⟩, hsq p q0, ?_⟩
    · intro q' y' hq' hn' hy'
      rw [hsq] at hy'
      rw [← Option.some.inj hy', ← e0]
      have := hmin q' hq' (by subst hP; exact hn')
      have h00 : 0 ≤ δ p := by rw [e0]; exact abs_nonneg _
      exact_mod_cast double_nearest_mono (mul_le_mul this this h00 (abs_nonneg _))
    · rw [← e0]
      refine root_square ?_ (by rw [e0, hexact])
      rcases hunit p q0 with h | h
      · rw [e0, h] at hlt; linarith
      · rw [e0]; linarith
  -- the run
  obtain ⟨res, hres⟩ := ((C104_defined (ieee fpRoot) P T (finite r v) (finite r w) hT).2 (contains_refl _)).1 (fun p q _ _ _ h => by cases h)
  obtain ⟨o', ho'⟩ := update_of_filter (ieee fpRoot) (div := fpDivide) (o := ⟨P, left⟩) hres
  have hcount : count r (Differs (ieee fpRoot) P (finite r v) (finite r w)) = count r (fun p => τ < δ p) := by
    rw [count, count]
    congr 1
    apply List.filter_congr
    intro p hp
    simp only [decide_eq_decide]
    exact hdiff p ((mem_pixels _ _).mp hp)
  have htotal : total r (Differs (ieee fpRoot) P (finite r v) (finite r w)) δ = total r (fun p => τ < δ p) δ := by
    rw [total, total]
    congr 2
    apply List.filter_congr
    intro p hp
    simp only [decide_eq_decide]
    exact hdiff p ((mem_pixels _ _).mp hp)
  have hmax : (2 : ℚ) ^ 53 * 2 ^ s ≤ double.max := by
    have h1 : (2 : ℚ) ^ 53 * 2 ^ s ≤ 2 ^ (512 : Int) := by
      rw [show (2 : ℚ) ^ 53 = 2 ^ (53 : Int) by norm_num, ← zpow_add₀ (by norm_num)]
      exact zpow_le_zpow_right₀ (by norm_num) (by omega)
    have : (2 : ℚ) ^ (512 : Int) ≤ double.max := by decide +kernel
    exact h1.trans this
  obtain ⟨t1, t2⟩ := total_exact hT ho' hμ (s := s) (by omega) (fun p hp _ => by
      obtain ⟨⟨q0, -, -, e0⟩, -⟩ := hδ p hp
      obtain ⟨k, -, e⟩ := whole_difference (hv p) (hw q0)
      exact ⟨k, by rw [e0, e]⟩) (by show total r _ δ ≤ _; rw [htotal]; exact hfit) (by show total r _ δ ≤ _; rw [htotal]; exact hfit.trans hmax)
  have t1 : o'.statistics.number = count r (Differs (ieee fpRoot) P (finite r v) (finite r w)) := t1
  have t2 : o'.statistics.total = some ((total r (Differs (ieee fpRoot) P (finite r v) (finite r w)) δ : ℚ) : WithTop ℚ) := t2
  rw [hcount] at t1
  rw [htotal] at t2
  obtain ⟨_, -, -, hpar, -⟩ := update_ok _ ho'
  refine ⟨res.2, o'.statistics, ?_, t1, t2, ?_⟩
  · rw [ho', hpar]
  · intro hne hlen
    exact (C109_mean T (finite r v) (finite r w) _ _ _ ho').1 _ t2 hne hlen

/-! ## Infinite distances -/

theorem fold_number : ∀ (l : List (Option (WithTop ℚ))) (a : Option (WithTop ℚ)), a ≠ none → (∀ x ∈ l, x ≠ none) →
    l.foldl magnitudeAdd a ≠ none ∧ ((a = some ⊤ ∨ some ⊤ ∈ l) → l.foldl magnitudeAdd a = some ⊤) := by
  intro l
  induction l with
  | nil => intro a h _; exact ⟨h, fun h => by simpa using h⟩
  | cons b l ih =>
    intro a ha hl
    have hb := hl b (by simp)
    have hl' : ∀ x ∈ l, x ≠ none := fun x hx => hl x (List.mem_cons_of_mem _ hx)
    rw [List.foldl_cons]
    obtain ⟨a, rfl⟩ := Option.ne_none_iff_exists'.mp ha
    obtain ⟨b, rfl⟩ := Option.ne_none_iff_exists'.mp hb
    have hab : magnitudeAdd (some a) (some b) ≠ none := by
      cases a <;> cases b <;> exact fun h => (nomatch h)
    obtain ⟨h1, h2⟩ := ih _ hab hl'
    refine ⟨h1, fun h => h2 ?_⟩
    rcases h with h | h
    · left; cases h; cases b <;> rfl
    · rcases List.mem_cons.mp h with h | h
      · left; cases h; cases a <;> rfl
      · exact Or.inr h

/-- **C109.** After a run, the total is a number or infinite; it is infinite if a pixel with differences is infinitely far from every value within the radius. -/
theorem C109_infinite (T : Threads Fp) (valid test : Image Fp) (hT : Covers T valid.region) (o o' : FilterObject (WithTop ℚ)) (out : Index → Fp)
    (h : o.update (ieee fpRoot) fpDivide T valid test = (o', .ok out)) :
    o'.statistics.total ≠ none ∧
    ((∃ p q, Inside valid.region p ∧ Differs (ieee fpRoot) o.params valid test p ∧ Closest (ieee fpRoot) o.params.radius valid test p q ∧
      distance2 (ieee fpRoot) valid test p q = some ⊤) → o'.statistics.total = some ⊤) := by
  obtain ⟨s, hrun, hc, rfl, hf⟩ := update_ok _ h
  have hin : ∀ e ∈ T.sched, Inside test.region e.2 := fun e he =>
    inside_of_contains _ _ _ hc ((mem_pixels _ _).mp (hT.1.mem_iff.mp (List.mem_map_of_mem he)))
  have hval : ∀ e ∈ T.sched, counted (ieee fpRoot) o.params valid test e.2 = true → fpRoot (pixelDifference (ieee fpRoot) o.params valid test e.2).2 ≠ none := by
    intro e he hcnt
    obtain ⟨q, hq, e2⟩ := magnitude_closest (ieee fpRoot) o.params valid test e.2 (hin e he) ((counted_iff _ _ _ _ _ (hin e he)).mp hcnt)
    obtain ⟨-, -, y, hy, -⟩ := hq
    rw [e2, hy]
    cases y <;> exact fun h => (nomatch h)
  have hlist : ∀ t, ∀ x ∈ ((T.sched.filter fun e => counted (ieee fpRoot) o.params valid test e.2).filter fun e => e.1 = t).map fun e =>
      (ieee fpRoot).root (pixelDifference (ieee fpRoot) o.params valid test e.2).2, x ≠ none := by
    intro t x hx
    obtain ⟨e, he, rfl⟩ := List.mem_map.mp hx
    obtain ⟨h1, h2⟩ := List.mem_filter.mp (List.mem_filter.mp he).1
    exact hval e h1 h2
  have hsums : ∀ t, s.sums t ≠ none := by
    intro t
    rw [run_sums _ _ _ _ _ _ _ hrun t]
    exact (fold_number _ (some ((0 : ℚ) : WithTop ℚ)) (fun h => (nomatch h)) (hlist t)).1
  have e : totalMagnitude (ieee fpRoot) T.n s = ((List.range T.n).map s.sums).foldl magnitudeAdd (some ((0 : ℚ) : WithTop ℚ)) := by
    rw [totalMagnitude, List.foldl_map]; rfl
  have hall : ∀ x ∈ (List.range T.n).map s.sums, x ≠ none := by
    intro x hx
    obtain ⟨t, -, rfl⟩ := List.mem_map.mp hx
    exact hsums t
  obtain ⟨k1, k2⟩ := fold_number _ (some ((0 : ℚ) : WithTop ℚ)) (fun h => (nomatch h)) hall
  simp only [after]
  rw [e]
  refine ⟨k1, ?_⟩
  rintro ⟨p, q, hp, hd, hq, hinf⟩
  refine k2 (Or.inr ?_)
  obtain ⟨e', he', rfl⟩ := List.mem_map.mp (hT.1.mem_iff.mpr ((mem_pixels _ _).mpr hp))
  have hcnt := (counted_iff _ _ _ _ _ (hin e' he')).mpr hd
  refine List.mem_map.mpr ⟨e'.1, List.mem_range.mpr (hT.2 e' he'), ?_⟩
  rw [run_sums _ _ _ _ _ _ _ hrun e'.1]
  refine (fold_number _ (some ((0 : ℚ) : WithTop ℚ)) (fun h => (nomatch h)) (hlist e'.1)).2 (Or.inr ?_)
  refine List.mem_map.mpr ⟨e', List.mem_filter.mpr ⟨List.mem_filter.mpr ⟨he', hcnt⟩, by simp⟩, ?_⟩
  obtain ⟨q', hq', e2⟩ := magnitude_closest (ieee fpRoot) o.params valid test e'.2 (hin e' he') hd
  rw [e2, closest_same _ _ _ _ _ _ _ hq' hq, hinf]
  rfl

/-- Otherwise there are distances as `C109_total` and `C109_exact` suppose them. -/
theorem C109_distances (P : Params (WithTop ℚ)) (valid test : Image Fp) (hc : test.region.contains valid.region = true)
    (h : ∀ p q, Inside valid.region p → Differs (ieee fpRoot) P valid test p → Closest (ieee fpRoot) P.radius valid test p q → distance2 (ieee fpRoot) valid test p q ≠ some ⊤) :
    ∃ μ, Distances (ieee fpRoot) P valid test μ := by
  have : ∀ p, ∃ m : ℚ, Inside valid.region p → Differs (ieee fpRoot) P valid test p →
      ∃ (q : Index) (x : ℚ), Closest (ieee fpRoot) P.radius valid test p q ∧ distance2 (ieee fpRoot) valid test p q = some (x : WithTop ℚ) ∧ RoundedRoot x m := by
    intro p
    by_cases hp : Inside valid.region p
    · by_cases hd : Differs (ieee fpRoot) P valid test p
      · obtain ⟨q, hq, -⟩ := magnitude_closest (ieee fpRoot) P valid test p (inside_of_contains _ _ _ hc hp) hd
        have hfin := h p q hp hd hq
        obtain ⟨hq1, hq2, y, hy, hmin⟩ := hq
        obtain ⟨-, ⟨b, -, hb, -, -⟩, hfar⟩ := hd
        have hlt : b < y := by
          by_contra hle
          exact hfar q hq1 hq2 ⟨b, y, hb, hy, not_lt.mp hle⟩
        cases y with
        | top => exact absurd hy hfin
        | coe x =>
          have hx0 : 0 < x := by
            obtain ⟨hx0, -⟩ := fpSquare_value hy
            rcases hx0.lt_or_eq with h | h
            · exact h
            · exfalso
              have hb : magnitudeSquare P.threshold = some b := hb
              cases b with
              | top => exact not_top_lt hlt
              | coe b =>
                have hb0 : 0 ≤ b := by
                  rcases hP : P.threshold with _ | t
                  · rw [hP] at hb; cases hb
                  · rw [hP] at hb
                    cases t with
                    | top => cases hb
                    | coe t =>
                      have hb : some (double.round (t * t)) = some (b : WithTop ℚ) := hb
                      rw [Format.round] at hb
                      split at hb
                      · have : double.nearest (t * t) = b := by exact_mod_cast Option.some.inj hb
                        rw [← this]; exact double.nearest_nonneg _
                      · cases hb
                rw [← h] at hlt
                have : b < 0 := by exact_mod_cast hlt
                linarith
          exact ⟨rootOf x, fun _ _ => ⟨q, x, ⟨hq1, hq2, _, hy, hmin⟩, hy, rootOf_rounded hx0⟩⟩
      · exact ⟨0, fun _ h => absurd h hd⟩
    · exact ⟨0, fun h => absurd h hp⟩
  choose μ hμ using this
  exact ⟨μ, hμ⟩

/-! ## The total depends on the division into threads -/

/-- **C109.** In general the total magnitude depends on how the pixels are divided among the threads: for distances 1, 2^-53 and 2^-53 it is 1 with one thread, 1 + 2^-52 with two. -/
theorem C109_threads :
    ∃ (v w : Index → ℚ) (T T' : Threads Fp), Covers T [(0, 3)] ∧ Covers T' [(0, 3)] ∧
      (FilterObject.update (ieee fpRoot) fpDivide T (finite [(0, 3)] v) (finite [(0, 3)] w) (FilterObject.new (ieee fpRoot))).1.statistics.total = some ((1 : ℚ) : WithTop ℚ) ∧
      (FilterObject.update (ieee fpRoot) fpDivide T' (finite [(0, 3)] v) (finite [(0, 3)] w) (FilterObject.new (ieee fpRoot))).1.statistics.total = some ((1 + 2 ^ (-52 : Int) : ℚ) : WithTop ℚ) := by
  refine ⟨fun p => if p = [0] then 1 else 2 ^ (-53 : Int), fun _ => 0, ⟨1, [(0, [0]), (0, [1]), (0, [2])], fun _ => .nan false⟩,
    ⟨2, [(0, [0]), (1, [1]), (1, [2])], fun _ => .nan false⟩, ?_, ?_, ?_, ?_⟩
  · exact ⟨by decide, by decide⟩
  · exact ⟨by decide, by decide⟩
  · decide +kernel
  · decide +kernel

/-- 10, 20 and 30 against 12, 20 and 27 with tolerance 1 (`C109_whole`): two pixels, total 5, mean 5/3 rounded. -/
example : let st := (FilterObject.update (ieee fpRoot) fpDivide ⟨2, [(1, [2]), (0, [0]), (1, [1])], fun _ => .nan false⟩ (finite [(0, 3)] fun p => if p = [0] then 10 else if p = [1] then 20 else 30)
      (finite [(0, 3)] fun p => if p = [0] then 12 else if p = [1] then 20 else 27) ⟨{ threshold := some ((1 : ℚ) : WithTop ℚ), radius := 0 }, ⟨none, none, 77⟩⟩).1.statistics
    st.number = 2 ∧ st.total = some ((5 : ℚ) : WithTop ℚ) ∧ st.mean = some ((double.nearest (5 / 3) : ℚ) : WithTop ℚ) := by
  decide +kernel

end Verif.Itk.Any
