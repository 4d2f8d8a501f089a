import Verif.Diff.Search

/-!
# How far the two searches get

Facts about the two sequences: what is known about the neighbours of a diagonal that went over the edge of the box.
-/

set_option linter.unusedVariables false
set_option linter.unusedSectionVars false

namespace Verif.Diff

section
variable (X Y : Int → Nat) (b : Box) (hN : b.xb < b.xe) (hM : b.yb < b.ye)
include hN hM

theorem FS_overX (L : Nat) : ∀ k, b.dmin < k → b.fmin L ≤ k → k ≤ b.fmax L → b.xe + 1 ≤ FS X Y b (L + 1) k →
    b.fmin L ≤ k - 1 ∧ b.xe ≤ FS X Y b (L + 1) (k - 1) ∧ (b.fmin L ≤ k - 2 → b.xe ≤ FS X Y b (L + 1) (k - 2)) := by
  induction L with
  | zero =>
    intro k h0 h1 h2 h3
    have := FS_bottom X Y b hN hM 0 k (by bounds) (by omega)
    omega
  | succ L ih =>
    intro k h0 h1 h2 h3
    have hb : ¬ (k = b.fmid - (L + 1 : Nat) ∨ k = b.fmid - (L + 1 : Nat) + 1) := by
      intro h
      have := FS_bottom X Y b hN hM (L + 1) k h (by omega)
      omega
    have hm : b.fmin (L + 1 : Nat) ≤ k - 1 := by clear ih; bounds
    refine ⟨hm, ?_⟩
    by_cases hK : b.KF (L + 1 : Nat) k
    · obtain ⟨s1, s2, s3, -⟩ := FS_step X Y b (L + 1) k hK
      have key : b.xe ≤ FS X Y b (L + 1) (k - 1) := by
        have g1 : FG X Y b (L + 1) (k - 1) = FS X Y b (L + 1) (k - 1) := FG_off X Y b (L + 1) (k - 1) hm (by omega)
        by_cases hc : b.xe ≤ FG X Y b (L + 1) (k - 1)
        · omega
        · have g2 : b.xe + 1 ≤ FG X Y b (L + 1) (k + 1) := by omega
          by_cases hs : k + 1 = b.fmax (L + 1 : Nat) + 1
          · rw [FG_at X Y b (L + 1) (k + 1) (Or.inr hs)] at g2; omega
          · rw [FG_off X Y b (L + 1) (k + 1) (by omega) (by omega)] at g2
            have i := ih (k + 1) (by omega) (by clear ih; bounds) (by clear ih; bounds) g2
            rw [show k + 1 - 2 = k - 1 by omega] at i
            exact i.2.2 (by clear ih; bounds)
      refine ⟨?_, fun hl => ?_⟩
      · rw [FS_keep X Y b (L + 1) (k - 1) (by clear ih; bounds) hm (by omega)]
        exact key
      · obtain ⟨-, t2, -, -⟩ := FS_step X Y b (L + 1) (k - 2) (by clear ih; bounds)
        rw [show k - 2 + 1 = k - 1 by omega, FG_off X Y b (L + 1) (k - 1) hm (by omega)] at t2
        omega
    · have e := FS_keep X Y b (L + 1) k hK h1 h2
      rw [e] at h3
      have i := ih k h0 (by clear ih; bounds) (by clear ih; bounds) h3
      refine ⟨?_, fun hl => ?_⟩
      · obtain ⟨-, t2, -, -⟩ := FS_step X Y b (L + 1) (k - 1) (by clear ih; bounds)
        rw [show k - 1 + 1 = k by omega, FG_off X Y b (L + 1) k h1 h2] at t2
        omega
      · rw [FS_keep X Y b (L + 1) (k - 2) (by clear ih; bounds) hl (by omega)]
        by_cases hl' : b.fmin L ≤ k - 2
        · exact i.2.2 hl'
        · have := FS_bottom X Y b hN hM L k (by clear ih; bounds) (by omega)
          omega

theorem FS_overY (L : Nat) : ∀ k, k < b.dmax → b.fmin L ≤ k → k ≤ b.fmax L → b.ye + 1 ≤ FS X Y b (L + 1) k - k →
    k + 1 ≤ b.fmax L ∧ b.ye ≤ FS X Y b (L + 1) (k + 1) - (k + 1) ∧ (k + 2 ≤ b.fmax L → b.ye ≤ FS X Y b (L + 1) (k + 2) - (k + 2)) := by
  induction L with
  | zero =>
    intro k h0 h1 h2 h3
    have := FS_top X Y b hN hM 0 k (by bounds) (by omega)
    omega
  | succ L ih =>
    intro k h0 h1 h2 h3
    have hd : b.xb - k ≤ b.ye := by clear ih; bounds
    have hb : ¬ (k = b.fmid + (L + 1 : Nat) ∨ k = b.fmid + (L + 1 : Nat) - 1) := by
      intro h
      have := FS_top X Y b hN hM (L + 1) k h (by omega)
      omega
    have hm : k + 1 ≤ b.fmax (L + 1 : Nat) := by clear ih; bounds
    refine ⟨hm, ?_⟩
    by_cases hK : b.KF (L + 1 : Nat) k
    · obtain ⟨s1, s2, s3, -⟩ := FS_step X Y b (L + 1) k hK
      have key : b.ye ≤ FS X Y b (L + 1) (k + 1) - (k + 1) := by
        have g1 : FG X Y b (L + 1) (k + 1) = FS X Y b (L + 1) (k + 1) := FG_off X Y b (L + 1) (k + 1) (by omega) hm
        by_cases hc : b.ye ≤ FG X Y b (L + 1) (k + 1) - (k + 1)
        · omega
        · have g2 : b.ye + 1 ≤ FG X Y b (L + 1) (k - 1) - (k - 1) := by omega
          by_cases hs : k - 1 = b.fmin (L + 1 : Nat) - 1
          · rw [FG_at X Y b (L + 1) (k - 1) (Or.inl hs)] at g2; omega
          · rw [FG_off X Y b (L + 1) (k - 1) (by omega) (by omega)] at g2
            by_cases hl : b.fmin L ≤ k - 1
            · have i := ih (k - 1) (by omega) hl (by clear ih; bounds) g2
              rw [show k - 1 + 2 = k + 1 by omega] at i
              exact i.2.2 (by clear ih; bounds)
            · have e : k - 1 = b.fmin L - 1 := by clear ih; bounds
              have e2 := (FS_sentinel X Y b hN hM L).1
              rw [← e] at e2
              omega
      refine ⟨?_, fun hl => ?_⟩
      · rw [FS_keep X Y b (L + 1) (k + 1) (by clear ih; bounds) (by omega) hm]
        exact key
      · obtain ⟨t1, -, -, -⟩ := FS_step X Y b (L + 1) (k + 2) (by clear ih; bounds)
        rw [show k + 2 - 1 = k + 1 by omega, FG_off X Y b (L + 1) (k + 1) (by omega) hm] at t1
        omega
    · have e := FS_keep X Y b (L + 1) k hK h1 h2
      rw [e] at h3
      have hl : b.fmin L ≤ k := by
        by_cases hl : b.fmin L ≤ k
        · exact hl
        · have e : k = b.fmin L - 1 := by clear ih; bounds
          have e2 := (FS_sentinel X Y b hN hM L).1
          rw [← e] at e2
          omega
      have i := ih k h0 hl (by clear ih; bounds) h3
      refine ⟨?_, fun hl => ?_⟩
      · obtain ⟨t1, -, -, -⟩ := FS_step X Y b (L + 1) (k + 1) (by clear ih; bounds)
        rw [show k + 1 - 1 = k by omega, FG_off X Y b (L + 1) k h1 h2] at t1
        omega
      · rw [FS_keep X Y b (L + 1) (k + 2) (by clear ih; bounds) (by omega) hl]
        by_cases hl' : k + 2 ≤ b.fmax L
        · exact i.2.2 hl'
        · have := FS_top X Y b hN hM L k (by clear ih; bounds) (by omega)
          omega

/-- Once the forward search has reached the last diagonal, it only ever visits the same diagonals again and finds the same values. -/
theorem FS_frozen (L : Nat) (k : Int) (hL : b.xe - b.xb ≤ L) (hp : (b.dmax - k) % 2 = 0) (h1 : b.fmin L ≤ k) (h2 : k ≤ b.dmax) :
    FS X Y b (L + 1 + 1) k = FS X Y b (L + 1) k := by
  have e1 : FS X Y b (L + 1) k = snakeF X Y b k (max (FG X Y b L (k - 1) + 1) (FG X Y b L (k + 1))) := FS_in X Y b L k (by bounds)
  have e2 : FS X Y b (L + 1 + 1) k = snakeF X Y b k (max (FG X Y b (L + 1) (k - 1) + 1) (FG X Y b (L + 1) (k + 1))) :=
    FS_in X Y b (L + 1) k (by bounds)
  have up : FG X Y b (L + 1) (k + 1) = FG X Y b L (k + 1) := by
    by_cases hs : k = b.dmax
    · rw [FG_at X Y b (L + 1) (k + 1) (by bounds), FG_at X Y b L (k + 1) (by bounds)]
    · rw [FG_off X Y b (L + 1) (k + 1) (by bounds) (by bounds), FS_out _ _ _ _ _ (by bounds)]; rfl
  have dn : FG X Y b (L + 1) (k - 1) = FG X Y b L (k - 1) := by
    by_cases hs : k - 1 = b.fmin L - 1
    · rw [FG_at X Y b L (k - 1) (by omega)]
      by_cases hs' : k - 1 = b.fmin (L + 1 : Nat) - 1
      · rw [FG_at X Y b (L + 1) (k - 1) (by omega)]
      · rw [FG_off X Y b (L + 1) (k - 1) (by bounds) (by bounds), hs, (FS_sentinel X Y b hN hM L).1]
    · rw [FG_off X Y b (L + 1) (k - 1) (by bounds) (by bounds), FS_out _ _ _ _ _ (by bounds)]; rfl
  rw [e1, e2, up, dn]

/-- A diagonal visited for the first time after that starts at the edge. -/
theorem FS_fresh (L : Nat) (k : Int) (hL : b.xe - b.xb < L) (hk : k = b.fmid - L) (h : b.KF L k) :
    (FS X Y b (L + 1) k = b.xb) ∨
      (FS X Y b (L + 1) k ≤ b.xe ∧ FS X Y b (L + 1) k - k ≤ b.ye ∧ X (FS X Y b (L + 1) k - 1) = Y (FS X Y b (L + 1) k - 1 - k)) := by
  obtain ⟨s1, s2, s3, -⟩ := FS_step X Y b L k h
  have dn : FG X Y b L (k - 1) = b.xb - 1 := FG_at X Y b L (k - 1) (by bounds)
  have up : FG X Y b L (k + 1) = b.xb - 1 := by
    obtain ⟨m, rfl⟩ : ∃ m, L = m + 2 := ⟨L - 2, by omega⟩
    rw [FG_off X Y b (m + 2) (k + 1) (by bounds) (by bounds), FS_keep X Y b (m + 1) (k + 1) (by bounds) (by bounds) (by bounds)]
    have e : k + 1 = b.fmin m - 1 := by bounds
    rw [e, (FS_sentinel X Y b hN hM m).1]
  omega

/-- With a single line in the first text the middle diagonal is visited once. -/
theorem FS_single (L : Nat) (h1 : b.xe = b.xb + 1) : FS X Y b (L + 1) b.fmid = FS X Y b 1 b.fmid := by
  induction L with
  | zero => rfl
  | succ L ih => rw [FS_keep X Y b (L + 1) b.fmid (by clear ih; bounds) (by clear ih; bounds) (by clear ih; bounds), ih]

theorem FS_first (h : X b.xb ≠ Y b.yb) : FS X Y b 1 b.fmid = b.xb := by
  have e : FS X Y b 1 b.fmid = snakeF X Y b b.fmid (max (FG X Y b 0 (b.fmid - 1) + 1) (FG X Y b 0 (b.fmid + 1))) :=
    FS_in X Y b 0 b.fmid (by bounds)
  rw [e, FG_at X Y b 0 _ (by bounds), FG_at X Y b 0 _ (by bounds), show max (b.xb - 1 + 1) (b.xb - 1) = b.xb by omega, snakeF]
  have : b.xb - b.fmid = b.yb := by bounds
  rw [this]
  simp [h]

theorem BS_first (h : X (b.xe - 1) ≠ Y (b.ye - 1)) : BS X Y b 1 b.bmid = b.xe := by
  have e : BS X Y b 1 b.bmid = snakeB X Y b b.bmid (min (BG X Y b 0 (b.bmid - 1)) (BG X Y b 0 (b.bmid + 1) - 1)) :=
    BS_in X Y b 0 b.bmid (by bounds)
  rw [e, BG_at X Y b 0 _ (by bounds), BG_at X Y b 0 _ (by bounds), show min (b.xe + 1) (b.xe + 1 - 1) = b.xe by omega, snakeB]
  have : b.xe - 1 - b.bmid = b.ye - 1 := by bounds
  rw [this]
  simp [h]

theorem BS_sentinel (L : Nat) : BS X Y b (L + 1) (b.bmin L - 1) = b.xe + 1 ∧ BS X Y b (L + 1) (b.bmax L + 1) = b.xe + 1 := by
  constructor
  · rw [BS_out _ _ _ _ _ (by bounds), sentB_at _ _ _ _ (by omega)]
  · rw [BS_out _ _ _ _ _ (by bounds), sentB_at _ _ _ _ (by omega)]

theorem BS_cap (L : Nat) : (3 ≤ (b.xe - b.xb) + (b.ye - b.yb) ∨ L ≤ 1) → ∀ k, b.bmin L ≤ k → k ≤ b.bmax L →
    BS X Y b (L + 1) k ≤ b.xe ∧ BS X Y b (L + 1) k ≤ b.ye + k := by
  induction L with
  | zero =>
    intro _ k h1 h2
    have hk : k = b.bmid := by bounds
    subst hk
    obtain ⟨s1, s2, -, -⟩ := BS_step X Y b 0 b.bmid (by bounds)
    rw [BG_at X Y b 0 _ (by bounds)] at s1 s2
    simp only [Box.bmid] at *
    omega
  | succ L ih =>
    intro hc k h1 h2
    have ih := ih (by omega)
    by_cases hK : b.KB (L + 1 : Nat) k
    · obtain ⟨s1, s2, -, -⟩ := BS_step X Y b (L + 1) k hK
      by_cases hu : k + 1 ≤ b.bmax (L + 1 : Nat)
      · rw [BG_off X Y b (L + 1) (k + 1) (by omega) hu] at s2
        have := ih (k + 1) (by clear ih; bounds) (by clear ih; bounds)
        omega
      · have hd : b.bmin (L + 1 : Nat) ≤ k - 1 := by clear ih; bounds
        rw [BG_off X Y b (L + 1) (k - 1) hd (by omega)] at s1
        have := ih (k - 1) (by clear ih; bounds) (by clear ih; bounds)
        omega
    · rw [BS_keep X Y b (L + 1) k hK h1 h2]
      exact ih k (by clear ih; bounds) (by clear ih; bounds)

theorem BS_overX (L : Nat) : ∀ k, b.KB L k → k < b.fmid → BS X Y b (L + 1) k ≤ b.xb - 1 →
    1 ≤ L ∧ b.bmin (L - 1 : Nat) ≤ k + 1 ∧ k + 1 ≤ b.bmax (L - 1 : Nat) ∧ BS X Y b L (k + 1) ≤ b.xb ∧ k + 2 ≤ b.bmax L ∧
      BS X Y b (L + 1) (k + 2) ≤ b.xb := by
  induction L with
  | zero =>
    intro k hK hf h
    obtain ⟨s1, s2, s3, -⟩ := BS_step X Y b 0 k hK
    rw [BG_at X Y b 0 (k - 1) (by bounds)] at s1 s3
    rw [BG_at X Y b 0 (k + 1) (by bounds)] at s2 s3
    omega
  | succ L ih =>
    intro k hK hf h
    obtain ⟨s1, s2, s3, -⟩ := BS_step X Y b (L + 1) k hK
    have key : b.bmin L ≤ k + 1 ∧ k + 1 ≤ b.bmax L ∧ BS X Y b (L + 1) (k + 1) ≤ b.xb ∧ k + 2 ≤ b.bmax (L + 1 : Nat) := by
      by_cases hc : BG X Y b (L + 1) (k + 1) ≤ b.xb
      · by_cases hs : k + 1 = b.bmax (L + 1 : Nat) + 1
        · rw [BG_at X Y b (L + 1) (k + 1) (Or.inr hs)] at hc; omega
        · rw [BG_off X Y b (L + 1) (k + 1) (by clear ih; bounds) (by clear ih; bounds)] at hc
          refine ⟨?_, ?_, hc, ?_⟩ <;> (clear ih; bounds)
      · have g : BG X Y b (L + 1) (k - 1) ≤ b.xb - 1 := by omega
        by_cases hs : k - 1 = b.bmin (L + 1 : Nat) - 1
        · rw [BG_at X Y b (L + 1) (k - 1) (Or.inl hs)] at g; omega
        · rw [BG_off X Y b (L + 1) (k - 1) (by clear ih; bounds) (by clear ih; bounds)] at g
          obtain ⟨i1, i2, i3, i4, i5, i6⟩ := ih (k - 1) (by clear ih; bounds) (by omega) g
          rw [show k - 1 + 2 = k + 1 by omega] at i5 i6
          refine ⟨?_, i5, i6, ?_⟩ <;> (clear ih; bounds)
    obtain ⟨k1, k2, k3, k4⟩ := key
    refine ⟨by omega, by simpa using k1, by simpa using k2, k3, k4, ?_⟩
    obtain ⟨t1, -, -, -⟩ := BS_step X Y b (L + 1) (k + 2) (by clear ih; bounds)
    rw [show k + 2 - 1 = k + 1 by omega, BG_off X Y b (L + 1) (k + 1) (by clear ih; bounds) (by omega)] at t1
    omega

theorem BS_overY (L : Nat) : ∀ k, b.KB L k → b.fmid ≤ k → BS X Y b (L + 1) k - k ≤ b.yb - 1 →
    1 ≤ L ∧ b.bmin (L - 1 : Nat) ≤ k - 1 ∧ k - 1 ≤ b.bmax (L - 1 : Nat) ∧ BS X Y b L (k - 1) - (k - 1) ≤ b.yb ∧
      (b.dmin < k - 1 → b.bmin L ≤ k - 2 ∧ BS X Y b (L + 1) (k - 2) - (k - 2) ≤ b.yb) := by
  induction L with
  | zero =>
    intro k hK hf h
    obtain ⟨s1, s2, s3, -⟩ := BS_step X Y b 0 k hK
    rw [BG_at X Y b 0 (k - 1) (by bounds)] at s1 s3
    rw [BG_at X Y b 0 (k + 1) (by bounds)] at s2 s3
    exfalso; bounds
  | succ L ih =>
    intro k hK hf h
    have hd : b.yb + k ≤ b.xe := by clear ih; bounds
    obtain ⟨s1, s2, s3, -⟩ := BS_step X Y b (L + 1) k hK
    have key : b.bmin L ≤ k - 1 ∧ k - 1 ≤ b.bmax L ∧ BS X Y b (L + 1) (k - 1) - (k - 1) ≤ b.yb ∧ (b.dmin < k - 1 → b.bmin (L + 1 : Nat) ≤ k - 2) := by
      by_cases hc : BG X Y b (L + 1) (k - 1) - (k - 1) ≤ b.yb
      · by_cases hs : k - 1 = b.bmin (L + 1 : Nat) - 1
        · rw [BG_at X Y b (L + 1) (k - 1) (Or.inl hs)] at hc; omega
        · rw [BG_off X Y b (L + 1) (k - 1) (by clear ih; bounds) (by clear ih; bounds)] at hc
          refine ⟨?_, ?_, hc, fun _ => ?_⟩ <;> (clear ih; bounds)
      · have g : BG X Y b (L + 1) (k + 1) - (k + 1) ≤ b.yb - 1 := by omega
        by_cases hs : k + 1 = b.bmax (L + 1 : Nat) + 1
        · rw [BG_at X Y b (L + 1) (k + 1) (Or.inr hs)] at g; omega
        · rw [BG_off X Y b (L + 1) (k + 1) (by clear ih; bounds) (by clear ih; bounds)] at g
          obtain ⟨i1, i2, i3, i4, i5⟩ := ih (k + 1) (by clear ih; bounds) (by omega) g
          obtain ⟨i5, i6⟩ := i5 (by clear ih; bounds)
          rw [show k + 1 - 2 = k - 1 by omega] at i5 i6
          refine ⟨i5, ?_, i6, fun _ => ?_⟩ <;> (clear ih; bounds)
    obtain ⟨k1, k2, k3, k4⟩ := key
    refine ⟨by omega, by simpa using k1, by simpa using k2, k3, fun hlt => ⟨k4 hlt, ?_⟩⟩
    have k4 := k4 hlt
    obtain ⟨-, t2, -, -⟩ := BS_step X Y b (L + 1) (k - 2) (by clear ih; bounds)
    rw [show k - 2 + 1 = k - 1 by omega, BG_off X Y b (L + 1) (k - 1) (by omega) (by clear ih; bounds)] at t2
    omega

/-- The backward search gets strictly further on a diagonal each time it comes back to it. -/
theorem BS_decreases (L : Nat) (k : Int) (h3 : 3 ≤ (b.xe - b.xb) + (b.ye - b.yb)) (hK : b.KB (L + 1 : Nat) k) (h1 : b.bmin L ≤ k)
    (h2 : k ≤ b.bmax L) : BS X Y b (L + 1 + 1) k ≤ BS X Y b L k - 1 := by
  obtain ⟨s1, s2, -, -⟩ := BS_step X Y b (L + 1) k hK
  have g : BG X Y b L k = BS X Y b L k := BG_off X Y b L k h1 h2
  by_cases hu : k + 1 ≤ b.bmax (L + 1 : Nat)
  · rw [BG_off X Y b (L + 1) (k + 1) (by bounds) hu] at s2
    obtain ⟨t1, -, -, -⟩ := BS_step X Y b L (k + 1) (by bounds)
    rw [show k + 1 - 1 = k by omega] at t1
    omega
  · have hd : b.bmin (L + 1 : Nat) ≤ k - 1 := by bounds
    rw [BG_off X Y b (L + 1) (k - 1) hd (by bounds)] at s1
    obtain ⟨-, t2, -, -⟩ := BS_step X Y b L (k - 1) (by bounds)
    rw [show k - 1 + 1 = k by omega] at t2
    omega

end

end Verif.Diff
