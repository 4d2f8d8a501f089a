import Verif.Diff.Bounds

/-!
# Where the two searches meet

The first meeting point lies in the box and is neither of the two corners it started from; and there is a meeting point.
-/

set_option linter.unusedVariables false
set_option linter.unusedSectionVars false
set_option maxHeartbeats 4000000

namespace Verif.Diff

/-- The forward search of iteration `L` meets the backward search on diagonal `k`. -/
def oddHit (X Y : Int → Nat) (b : Box) (L : Nat) (k : Int) : Prop :=
  (b.fmid - b.bmid) % 2 = 1 ∧ b.KF L k ∧ b.bmin L ≤ k ∧ k ≤ b.bmax L ∧ BS X Y b L k ≤ FS X Y b (L + 1) k

/-- The backward search of iteration `L` meets the forward search on diagonal `k`. -/
def evenHit (X Y : Int → Nat) (b : Box) (L : Nat) (k : Int) : Prop :=
  (b.fmid - b.bmid) % 2 = 0 ∧ b.KB L k ∧ b.fmin (L + 1 : Nat) ≤ k ∧ k ≤ b.fmax (L + 1 : Nat) ∧ BS X Y b (L + 1) k ≤ FS X Y b (L + 1) k

section
variable (X Y : Int → Nat) (b : Box) (hN : b.xb < b.xe) (hM : b.yb < b.ye)
include hN hM

theorem mid_even_min (hs : X b.xb ≠ Y b.yb) (he : X (b.xe - 1) ≠ Y (b.ye - 1)) (L : Nat) (k : Int) (h : evenHit X Y b L k) : 1 ≤ L := by
  obtain ⟨hp, hK, h1, h2, h3⟩ := h
  rcases L with _ | L
  · have hk : k = b.bmid := by clear h3; bounds
    have hk' : k = b.fmid := by clear h3; bounds
    have f := FS_first X Y b hN hM hs
    have g := BS_first X Y b hN hM he
    rw [← hk'] at f
    rw [← hk] at g
    simp only [Nat.zero_add] at h3
    omega
  · omega

theorem mid_even_box (hs : X b.xb ≠ Y b.yb) (he : X (b.xe - 1) ≠ Y (b.ye - 1)) (L : Nat) (k : Int) (h : evenHit X Y b L k)
    (hno : ∀ L' < L, ∀ k', ¬ evenHit X Y b L' k') (hsame : ∀ k', k < k' → ¬ evenHit X Y b L k') :
    b.xb ≤ BS X Y b (L + 1) k ∧ BS X Y b (L + 1) k ≤ b.xe ∧ b.yb ≤ BS X Y b (L + 1) k - k ∧ BS X Y b (L + 1) k - k ≤ b.ye := by
  have hL := mid_even_min X Y b hN hM hs he L k h
  obtain ⟨hp, hK, h1, h2, h3⟩ := h
  obtain ⟨m, rfl⟩ : ∃ m, L = m + 1 := ⟨L - 1, by omega⟩
  have cap : BS X Y b (m + 1 + 1) k ≤ b.xe ∧ BS X Y b (m + 1 + 1) k ≤ b.ye + k := by
    refine BS_cap X Y b hN hM (m + 1) ?_ k hK.1 hK.2.1
    by_cases h2 : 3 ≤ (b.xe - b.xb) + (b.ye - b.yb)
    · exact Or.inl h2
    · right
      by_cases hm : m = 0
      · omega
      · exfalso
        refine hno 1 (by omega) b.dmax ⟨hp, by clear hsame hno; bounds, by clear hsame hno; bounds, by clear hsame hno; bounds, ?_⟩
        obtain ⟨s1, -, -, -⟩ := BS_step X Y b 1 b.dmax (by clear hsame hno; bounds)
        rw [BG_off X Y b 1 (b.dmax - 1) (by clear hsame hno; bounds) (by clear hsame hno; bounds)] at s1
        have c := (BS_cap X Y b hN hM 0 (by omega) (b.dmax - 1) (by clear hsame hno; bounds) (by clear hsame hno; bounds)).1
        simp only [Nat.zero_add] at c
        have f := ((FS_range X Y b hN hM 1 b.dmax (by clear hsame hno; bounds) (by clear hsame hno; bounds)).1 (by right; omega)).2
        have : b.yb + b.dmax = b.xe := by simp only [Box.dmax]; omega
        omega
  by_cases hk : k < b.fmid
  · have hx : b.xb ≤ BS X Y b (m + 1 + 1) k := by
      by_cases hx : b.xb ≤ BS X Y b (m + 1 + 1) k
      · exact hx
      exfalso
      obtain ⟨-, o2, o3, o4, o5, o6⟩ := BS_overX X Y b hN hM (m + 1) k hK hk (by omega)
      simp only [Nat.add_sub_cancel] at o2 o3
      by_cases hv : Vis b (k + 1)
      · have f := ((FS_range X Y b hN hM m (k + 1) (by clear hsame hno cap; bounds) (by clear hsame hno cap; bounds)).1 hv).1
        exact hno m (by omega) (k + 1) ⟨hp, by clear hsame hno cap; bounds, by clear hsame hno cap; bounds, by clear hsame hno cap; bounds, by omega⟩
      · have hv' : Vis b (k + 2) := by simp only [Vis] at *; omega
        have f := ((FS_range X Y b hN hM (m + 1) (k + 2) (by clear hsame hno cap; bounds) (by clear hsame hno cap; simp only [Vis] at *; bounds)).1 hv').1
        refine hsame (k + 2) (by omega) ⟨hp, by clear hsame hno cap; bounds, by clear hsame hno cap; bounds, ?_, by omega⟩
        clear hsame hno cap; simp only [Vis] at *; bounds
    refine ⟨hx, cap.1, ?_, by omega⟩
    simp only [Box.fmid] at hk; omega
  · have hy : b.yb ≤ BS X Y b (m + 1 + 1) k - k := by
      by_cases hy : b.yb ≤ BS X Y b (m + 1 + 1) k - k
      · exact hy
      exfalso
      obtain ⟨-, o2, o3, o4, -⟩ := BS_overY X Y b hN hM (m + 1) k hK (by omega) (by omega)
      simp only [Nat.add_sub_cancel] at o2 o3
      have f := ((FS_range X Y b hN hM m (k - 1) (by clear hsame hno cap; bounds) (by clear hsame hno cap; bounds)).1 (by left; omega)).2
      exact hno m (by omega) (k - 1) ⟨hp, by clear hsame hno cap; bounds, by clear hsame hno cap; bounds, by clear hsame hno cap; bounds, by omega⟩
    refine ⟨?_, cap.1, hy, by omega⟩
    simp only [Box.fmid] at hk; omega

theorem mid_even_corner (hs : X b.xb ≠ Y b.yb) (he : X (b.xe - 1) ≠ Y (b.ye - 1)) (L : Nat) (k : Int) (h : evenHit X Y b L k)
    (hno : ∀ L' < L, ∀ k', ¬ evenHit X Y b L' k') :
    ¬ (BS X Y b (L + 1) k = b.xb ∧ BS X Y b (L + 1) k - k = b.yb) ∧ ¬ (BS X Y b (L + 1) k = b.xe ∧ BS X Y b (L + 1) k - k = b.ye) := by
  have hL := mid_even_min X Y b hN hM hs he L k h
  obtain ⟨hp, hK, h1, h2, h3⟩ := h
  obtain ⟨m, rfl⟩ : ∃ m, L = m + 1 := ⟨L - 1, by omega⟩
  constructor
  · rintro ⟨e1, e2⟩
    have hk : k = b.fmid := by simp only [Box.fmid]; omega
    obtain ⟨s1, s2, s3, -⟩ := BS_step X Y b (m + 1) k hK
    rcases s3 with (s3 | s3) | s3
    · by_cases ht : k - 1 = b.bmin (m + 1 : Nat) - 1
      · rw [BG_at X Y b (m + 1) _ (Or.inl ht)] at s3; omega
      · rw [BG_off X Y b (m + 1) (k - 1) (by clear hno; bounds) (by clear hno; bounds)] at s3
        have f := ((FS_range X Y b hN hM m (k - 1) (by clear hno; bounds) (by clear hno; bounds)).1 (by left; omega)).1
        exact hno m (by omega) (k - 1) ⟨hp, by clear hno; bounds, by clear hno; bounds, by clear hno; bounds, by omega⟩
    · by_cases ht : k + 1 = b.bmax (m + 1 : Nat) + 1
      · rw [BG_at X Y b (m + 1) _ (Or.inr ht)] at s3; omega
      · rw [BG_off X Y b (m + 1) (k + 1) (by clear hno; bounds) (by clear hno; bounds)] at s3
        have f := ((FS_range X Y b hN hM m (k + 1) (by clear hno; bounds) (by clear hno; bounds)).1 (by left; omega)).2
        exact hno m (by omega) (k + 1) ⟨hp, by clear hno; bounds, by clear hno; bounds, by clear hno; bounds, by omega⟩
    · rw [e1, ← e1, e2, e1] at s3
      exact hs s3.2.2
  · rintro ⟨e1, e2⟩
    have hk : k = b.bmid := by simp only [Box.bmid]; omega
    rcases m with _ | m
    · clear hno; bounds
    by_cases h3' : 3 ≤ (b.xe - b.xb) + (b.ye - b.yb)
    · have d := BS_decreases X Y b hN hM (m + 1) k h3' hK (by clear hno; bounds) (by clear hno; bounds)
      have c := (BS_cap X Y b hN hM m (Or.inl h3') k (by clear hno; bounds) (by clear hno; bounds)).1
      omega
    · refine hno 1 (by omega) b.dmax ⟨hp, by clear hno; bounds, by clear hno; bounds, by clear hno; bounds, ?_⟩
      obtain ⟨s1, -, -, -⟩ := BS_step X Y b 1 b.dmax (by clear hno; bounds)
      rw [BG_off X Y b 1 (b.dmax - 1) (by clear hno; bounds) (by clear hno; bounds)] at s1
      have c := (BS_cap X Y b hN hM 0 (by omega) (b.dmax - 1) (by clear hno; bounds) (by clear hno; bounds)).1
      simp only [Nat.zero_add] at c
      have f := ((FS_range X Y b hN hM 1 b.dmax (by clear hno; bounds) (by clear hno; bounds)).1 (by right; omega)).2
      have : b.yb + b.dmax = b.xe := by simp only [Box.dmax]; omega
      omega

theorem mid_odd_box (hs : X b.xb ≠ Y b.yb) (L : Nat) (k : Int) (h : oddHit X Y b L k)
    (hno : ∀ L' < L, ∀ k', ¬ oddHit X Y b L' k') :
    1 ≤ L ∧ b.xb ≤ FS X Y b (L + 1) k ∧ FS X Y b (L + 1) k ≤ b.xe ∧ b.yb ≤ FS X Y b (L + 1) k - k ∧ FS X Y b (L + 1) k - k ≤ b.ye := by
  obtain ⟨hp, hK, h1, h2, h3⟩ := h
  rcases L with _ | m
  · exfalso; clear hno; bounds
  have h3' : 3 ≤ (b.xe - b.xb) + (b.ye - b.yb) := by simp only [Box.fmid, Box.bmid] at hp; omega
  obtain ⟨f1, f2⟩ := (FS_range X Y b hN hM (m + 1) k hK.1 hK.2.1).1 (by simp only [Vis]; clear hno; bounds)
  have ff := FS_first X Y b hN hM hs
  refine ⟨by omega, f1, ?_⟩
  suffices hh : (b.bmid ≤ k → FS X Y b (m + 1 + 1) k ≤ b.xe) ∧ (k ≤ b.bmid → FS X Y b (m + 1 + 1) k - k ≤ b.ye) by
    simp only [Box.bmid] at hh
    omega
  by_cases hst : (m + 1 : Nat) ≤ b.xe - b.xb
  · -- before the forward search reaches the last diagonal
    constructor
    · intro hk
      by_cases hx : FS X Y b (m + 1 + 1) k ≤ b.xe
      · exact hx
      exfalso
      obtain ⟨o1, o2, -⟩ := FS_overX X Y b hN hM (m + 1) k (by clear hno; bounds) hK.1 hK.2.1 (by omega)
      rw [FS_keep X Y b (m + 1) (k - 1) (by clear hno; bounds) o1 (by clear hno; bounds)] at o2
      rcases m with _ | m
      · have e : k - 1 = b.fmid := by clear hno; bounds
        rw [e] at o2
        simp only [Nat.zero_add] at o2
        omega
      · have c := (BS_cap X Y b hN hM m (Or.inl h3') (k - 1) (by clear hno; bounds) (by clear hno; bounds)).1
        exact hno (m + 1) (by omega) (k - 1) ⟨hp, by clear hno; bounds, by clear hno; bounds, by clear hno; bounds, by omega⟩
    · intro hk
      by_cases hx : FS X Y b (m + 1 + 1) k - k ≤ b.ye
      · exact hx
      exfalso
      obtain ⟨o1, o2, -⟩ := FS_overY X Y b hN hM (m + 1) k (by clear hno; bounds) hK.1 hK.2.1 (by omega)
      rw [FS_keep X Y b (m + 1) (k + 1) (by clear hno; bounds) (by clear hno; bounds) o1] at o2
      rcases m with _ | m
      · have e : k + 1 = b.fmid := by clear hno; bounds
        rw [e] at o2
        simp only [Nat.zero_add] at o2
        clear hno; bounds
      · have c := (BS_cap X Y b hN hM m (Or.inl h3') (k + 1) (by clear hno; bounds) (by clear hno; bounds)).2
        exact hno (m + 1) (by omega) (k + 1) ⟨hp, by clear hno; bounds, by clear hno; bounds, by clear hno; bounds, by omega⟩
  · -- after
    by_cases hfr : k < b.fmin m
    · have := FS_fresh X Y b hN hM (m + 1) k (by omega) (by clear hno; bounds) hK
      have hd : b.xb - k ≤ b.ye := by clear hno; bounds
      omega
    · have fz : FS X Y b (m + 1 + 1) k = FS X Y b (m + 1) k := FS_frozen X Y b hN hM m k (by omega) (by clear hno; bounds) (by omega) (by clear hno; bounds)
      rcases m with _ | m
      · omega
      have alive : ¬ (b.bmin (m + 1 : Nat) ≤ k ∧ k ≤ b.bmax (m + 1 : Nat) ∧ b.bmin m ≤ k ∧ k ≤ b.bmax m ∧
          (b.xe ≤ FS X Y b (m + 1 + 1) k ∨ b.ye ≤ FS X Y b (m + 1 + 1) k - k)) := by
        rintro ⟨a1, a2, a3, a4, a5⟩
        have c := BS_cap X Y b hN hM m (Or.inl h3') k a3 a4
        exact hno (m + 1) (by omega) k ⟨hp, by clear hno; bounds, a1, a2, by omega⟩
      constructor
      · intro hk
        by_cases hx : FS X Y b (m + 1 + 1 + 1) k ≤ b.xe
        · exact hx
        exfalso
        obtain ⟨o1, o2, o3⟩ := FS_overX X Y b hN hM (m + 1 + 1) k (by clear hno; bounds) hK.1 hK.2.1 (by omega)
        by_cases h1' : b.xe = b.xb + 1
        · have hv : ¬ Vis b (k - 1) ∨ k - 1 = b.fmid := by
            clear hno alive
            simp only [Vis]; bounds
          rcases hv with hv | hv
          · have := (FS_range X Y b hN hM (m + 1 + 1) (k - 1) o1 (by clear hno alive; bounds)).2 hv
            omega
          · rw [hv, FS_single X Y b hN hM (m + 1 + 1) h1'] at o2
            omega
        · by_cases hin : k ≤ b.bmax (m + 1 : Nat) ∧ k ≤ b.bmax m
          · exact alive ⟨by clear hno alive; bounds, hin.1, by clear hno alive; bounds, hin.2, by omega⟩
          · have hk' : b.bmid + 1 ≤ k := by clear hno alive; bounds
            have hlow : b.fmin (m + 1 : Nat) ≤ k - 2 := by
              have b1 : ¬ (k = b.fmid - (m + 1 + 1 : Nat) ∨ k = b.fmid - (m + 1 + 1 : Nat) + 1) := by
                intro h
                have := FS_bottom X Y b hN hM (m + 1 + 1) k h (by clear hno alive; bounds)
                omega
              have b2 : ¬ (k = b.fmid - (m + 1 : Nat) ∨ k = b.fmid - (m + 1 : Nat) + 1) := by
                intro h
                have := FS_bottom X Y b hN hM (m + 1) k h (by clear hno alive; bounds)
                omega
              clear hno alive; bounds
            have o3 := o3 (by clear hno alive; bounds)
            rw [FS_frozen X Y b hN hM (m + 1) (k - 2) (by omega) (by clear hno alive; bounds) hlow (by clear hno alive; bounds)] at o3
            have c := (BS_cap X Y b hN hM m (Or.inl h3') (k - 2) (by clear hno alive; bounds) (by clear hno alive; bounds)).1
            exact hno (m + 1) (by omega) (k - 2) ⟨hp, by clear hno alive; bounds, by clear hno alive; bounds, by clear hno alive; bounds, by omega⟩
      · intro hk
        by_cases hx : FS X Y b (m + 1 + 1 + 1) k - k ≤ b.ye
        · exact hx
        exfalso
        exact alive ⟨by clear hno alive; bounds, by clear hno alive; bounds, by clear hno alive; bounds, by clear hno alive; bounds, by omega⟩

theorem mid_odd_corner (hs : X b.xb ≠ Y b.yb) (he : X (b.xe - 1) ≠ Y (b.ye - 1)) (L : Nat) (k : Int) (h : oddHit X Y b L k)
    (hno : ∀ L' < L, ∀ k', ¬ oddHit X Y b L' k') :
    ¬ (FS X Y b (L + 1) k = b.xb ∧ FS X Y b (L + 1) k - k = b.yb) ∧ ¬ (FS X Y b (L + 1) k = b.xe ∧ FS X Y b (L + 1) k - k = b.ye) := by
  obtain ⟨hL, -⟩ := mid_odd_box X Y b hN hM hs L k h hno
  obtain ⟨hp, hK, h1, h2, h3⟩ := h
  obtain ⟨m, rfl⟩ : ∃ m, L = m + 1 := ⟨L - 1, by omega⟩
  have h3' : 3 ≤ (b.xe - b.xb) + (b.ye - b.yb) := by simp only [Box.fmid, Box.bmid] at hp; omega
  obtain ⟨s1, s2, s3, -⟩ := FS_step X Y b (m + 1) k hK
  have ff := FS_first X Y b hN hM hs
  constructor
  · rintro ⟨e1, e2⟩
    have hk : k = b.fmid := by simp only [Box.fmid]; omega
    have f := ((FS_range X Y b hN hM m (k - 1) (by clear hno; bounds) (by clear hno; bounds)).1 (by left; omega)).1
    rw [FG_off X Y b (m + 1) (k - 1) (by clear hno; bounds) (by clear hno; bounds)] at s1
    omega
  · rintro ⟨e1, e2⟩
    have hk : k = b.bmid := by simp only [Box.bmid]; omega
    have s3 : FS X Y b (m + 1 + 1) k = FG X Y b (m + 1) (k - 1) + 1 ∨ FS X Y b (m + 1 + 1) k = FG X Y b (m + 1) (k + 1) := by
      rcases s3 with s3 | s3
      · exact s3
      · exfalso
        rw [e1, show b.xe - 1 - k = b.ye - 1 by omega] at s3
        exact he s3.2.2
    by_cases hst : (m + 1 : Nat) ≤ b.xe - b.xb
    · rcases s3 with s3 | s3
      · by_cases ht : k - 1 = b.fmin (m + 1 : Nat) - 1
        · rw [FG_at X Y b (m + 1) _ (Or.inl ht)] at s3; omega
        · rw [FG_off X Y b (m + 1) (k - 1) (by clear hno; bounds) (by clear hno; bounds)] at s3
          rcases m with _ | m
          · have e : k - 1 = b.fmid := by clear hno; bounds
            rw [e] at s3
            simp only [Nat.zero_add] at *
            clear hno; bounds
          · have c := (BS_cap X Y b hN hM m (Or.inl h3') (k - 1) (by clear hno; bounds) (by clear hno; bounds)).2
            exact hno (m + 1) (by omega) (k - 1) ⟨hp, by clear hno; bounds, by clear hno; bounds, by clear hno; bounds, by omega⟩
      · by_cases ht : k + 1 = b.fmax (m + 1 : Nat) + 1
        · rw [FG_at X Y b (m + 1) _ (Or.inr ht)] at s3; omega
        · rw [FG_off X Y b (m + 1) (k + 1) (by clear hno; bounds) (by clear hno; bounds)] at s3
          rcases m with _ | m
          · have e : k + 1 = b.fmid := by clear hno; bounds
            rw [e] at s3
            simp only [Nat.zero_add] at *
            clear hno; bounds
          · have c := (BS_cap X Y b hN hM m (Or.inl h3') (k + 1) (by clear hno; bounds) (by clear hno; bounds)).1
            exact hno (m + 1) (by omega) (k + 1) ⟨hp, by clear hno; bounds, by clear hno; bounds, by clear hno; bounds, by omega⟩
    · by_cases hfr : k < b.fmin m
      · rcases FS_fresh X Y b hN hM (m + 1) k (by omega) (by clear hno; bounds) hK with f | f
        · omega
        · rw [e1, show b.xe - 1 - k = b.ye - 1 by omega] at f
          exact he f.2.2
      · have fz : FS X Y b (m + 1 + 1) k = FS X Y b (m + 1) k := FS_frozen X Y b hN hM m k (by omega) (by clear hno; bounds) (by omega) (by clear hno; bounds)
        rcases m with _ | m
        · omega
        have c := (BS_cap X Y b hN hM m (Or.inl h3') k (by clear hno; bounds) (by clear hno; bounds)).1
        exact hno (m + 1) (by omega) k ⟨hp, by clear hno; bounds, by clear hno; bounds, by clear hno; bounds, by omega⟩

theorem mid_odd_min (hs : X b.xb ≠ Y b.yb) (he : X (b.xe - 1) ≠ Y (b.ye - 1)) (L : Nat) (k : Int) (h : oddHit X Y b L k)
    (hno : ∀ L' < L, ∀ k', ¬ oddHit X Y b L' k') : 2 ≤ L := by
  obtain ⟨hL, b1, b2, b3, b4⟩ := mid_odd_box X Y b hN hM hs L k h hno
  obtain ⟨-, c⟩ := mid_odd_corner X Y b hN hM hs he L k h hno
  obtain ⟨hp, hK, h1, h2, h3⟩ := h
  by_cases hL' : L = 1
  · subst hL'
    have hk : k = b.bmid := by clear hno; bounds
    have g := BS_first X Y b hN hM he
    rw [← hk] at g
    exfalso
    refine c ⟨by omega, ?_⟩
    simp only [Box.bmid] at hk
    omega
  · omega

/-- The backward search on diagonal `k` at a late iteration. -/
theorem BS_late (h3 : 3 ≤ (b.xe - b.xb) + (b.ye - b.yb)) (k : Int) (hk1 : b.dmin < k) (hk2 : k < b.dmax) (L : Nat)
    (hL : (b.xe - b.xb) + (b.ye - b.yb) ≤ L) (hp : b.KB L k) (i : Nat) : BS X Y b (L + 2 * i + 1) k ≤ b.xe - i := by
  induction i with
  | zero =>
    have := (BS_cap X Y b hN hM L (Or.inl h3) k hp.1 hp.2.1).1
    simpa using this
  | succ i ih =>
    have d := BS_decreases X Y b hN hM (L + 2 * i + 1) k h3 (by clear ih; bounds) (by clear ih; bounds) (by clear ih; bounds)
    rw [show L + 2 * (i + 1) + 1 = L + 2 * i + 1 + 1 + 1 by omega]
    omega

/-- The two searches meet. -/
theorem hit_exists : ∃ L : Nat, (L : Int) ≤ 3 * ((b.xe - b.xb) + (b.ye - b.yb)) + 3 ∧ ∃ k, oddHit X Y b L k ∨ evenHit X Y b L k := by
  obtain ⟨n, hn⟩ : ∃ n : Nat, (n : Int) = b.xe - b.xb := ⟨(b.xe - b.xb).toNat, by omega⟩
  obtain ⟨m, hm⟩ : ∃ m : Nat, (m : Int) = b.ye - b.yb := ⟨(b.ye - b.yb).toNat, by omega⟩
  by_cases h3 : 3 ≤ (b.xe - b.xb) + (b.ye - b.yb)
  · obtain ⟨L, hL1, hL2, hK⟩ : ∃ L : Nat, n + m ≤ L ∧ L ≤ n + m + 1 ∧ b.KB L (b.dmax - 2) := by
      by_cases hc : b.KB (n + m : Nat) (b.dmax - 2)
      · exact ⟨n + m, by omega, by omega, hc⟩
      · exact ⟨n + m + 1, by omega, by omega, by bounds⟩
    have late := BS_late X Y b hN hM h3 (b.dmax - 2) (by bounds) (by bounds) L (by omega) hK n
    by_cases hp : (b.fmid - b.bmid) % 2 = 0
    · refine ⟨L + 2 * n, by omega, b.dmax - 2, Or.inr ⟨hp, by bounds, by bounds, by bounds, ?_⟩⟩
      have f := ((FS_range X Y b hN hM (L + 2 * n) (b.dmax - 2) (by bounds) (by bounds)).1 (by right; omega)).1
      omega
    · refine ⟨L + 2 * n + 1, by omega, b.dmax - 2, Or.inl ⟨by omega, by bounds, by bounds, by bounds, ?_⟩⟩
      have f := ((FS_range X Y b hN hM (L + 2 * n + 1) (b.dmax - 2) (by bounds) (by bounds)).1 (by right; omega)).1
      omega
  · refine ⟨1, by omega, b.dmax, Or.inr ⟨by bounds, by bounds, by bounds, by bounds, ?_⟩⟩
    obtain ⟨s1, -, -, -⟩ := BS_step X Y b 1 b.dmax (by bounds)
    rw [BG_off X Y b 1 (b.dmax - 1) (by bounds) (by bounds)] at s1
    have c := (BS_cap X Y b hN hM 0 (by omega) (b.dmax - 1) (by bounds) (by bounds)).1
    simp only [Nat.zero_add] at c
    have f := ((FS_range X Y b hN hM 1 b.dmax (by bounds) (by bounds)).1 (by right; omega)).2
    have : b.yb + b.dmax = b.xe := by simp only [Box.dmax]; omega
    omega

end

end Verif.Diff
