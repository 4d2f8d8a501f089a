import Verif.Diff.Model
import Mathlib.Tactic.Push

/-!
# The search for a midpoint as a pair of sequences

`FS L` and `BS L` are the contents of `fdiag` and `bdiag` after `L` iterations, as long as no midpoint is found; they do not depend on each
other.
-/

set_option linter.unusedVariables false
set_option linter.unusedSectionVars false

namespace Verif.Diff

namespace Box
/-- `fmin` in iteration `L`. -/
def fmin (b : Box) (L : Int) : Int := max b.dmin (b.fmid - L)
/-- `fmax` in iteration `L`. -/
def fmax (b : Box) (L : Int) : Int := min b.dmax (b.fmid + L)
/-- `bmin` in iteration `L`: down to the minimum, then to and fro. -/
def bmin (b : Box) (L : Int) : Int := if b.dmin ≤ b.bmid - L then b.bmid - L else b.dmin + (b.dmin - (b.bmid - L)) % 2
/-- `bmax` in iteration `L`. -/
def bmax (b : Box) (L : Int) : Int := if b.bmid + L ≤ b.dmax then b.bmid + L else b.dmax - (b.bmid + L - b.dmax) % 2
end Box

/-- Along equal lines forwards on diagonal `k`. -/
def snakeF (X Y : Int → Nat) (b : Box) (k x : Int) : Int :=
  if x < b.xe ∧ x - k < b.ye then if X x = Y (x - k) then snakeF X Y b k (x + 1) else x else x
termination_by (b.xe - x).toNat
decreasing_by omega

/-- Along equal lines backwards on diagonal `k`. -/
def snakeB (X Y : Int → Nat) (b : Box) (k x : Int) : Int :=
  if b.xb < x ∧ b.yb < x - k then if X (x - 1) = Y (x - 1 - k) then snakeB X Y b k (x - 1) else x else x
termination_by (x - b.xb).toNat
decreasing_by omega

theorem snakeF_spec (X Y : Int → Nat) (b : Box) (k x : Int) :
    x ≤ snakeF X Y b k x ∧ (x < snakeF X Y b k x → snakeF X Y b k x ≤ b.xe ∧ snakeF X Y b k x - k ≤ b.ye ∧
      X (snakeF X Y b k x - 1) = Y (snakeF X Y b k x - 1 - k)) ∧
    ¬ (snakeF X Y b k x < b.xe ∧ snakeF X Y b k x - k < b.ye ∧ X (snakeF X Y b k x) = Y (snakeF X Y b k x - k)) := by
  fun_induction snakeF X Y b k x with
  | case1 x h1 h2 ih =>
    obtain ⟨a1, a2, a3⟩ := ih
    refine ⟨by omega, fun _ => ?_, a3⟩
    by_cases h : x + 1 < snakeF X Y b k (x + 1)
    · exact a2 h
    · have : snakeF X Y b k (x + 1) = x + 1 := by omega
      rw [this]
      refine ⟨by omega, by omega, ?_⟩
      rw [show x + 1 - 1 = x by omega]; exact h2
  | case2 x h1 h2 => exact ⟨Int.le_refl _, by omega, fun h => h2 h.2.2⟩
  | case3 x h1 => exact ⟨Int.le_refl _, by omega, fun h => h1 ⟨h.1, h.2.1⟩⟩

theorem snakeB_spec (X Y : Int → Nat) (b : Box) (k x : Int) :
    snakeB X Y b k x ≤ x ∧ (snakeB X Y b k x < x → b.xb ≤ snakeB X Y b k x ∧ b.yb ≤ snakeB X Y b k x - k ∧
      X (snakeB X Y b k x) = Y (snakeB X Y b k x - k)) ∧
    ¬ (b.xb < snakeB X Y b k x ∧ b.yb < snakeB X Y b k x - k ∧ X (snakeB X Y b k x - 1) = Y (snakeB X Y b k x - 1 - k)) := by
  fun_induction snakeB X Y b k x with
  | case1 x h1 h2 ih =>
    obtain ⟨a1, a2, a3⟩ := ih
    refine ⟨by omega, fun _ => ?_, a3⟩
    by_cases h : snakeB X Y b k (x - 1) < x - 1
    · exact a2 h
    · have : snakeB X Y b k (x - 1) = x - 1 := by omega
      rw [this]
      exact ⟨by omega, by omega, h2⟩
  | case2 x h1 h2 => exact ⟨Int.le_refl _, by omega, fun h => h2 h.2.2⟩
  | case3 x h1 => exact ⟨Int.le_refl _, by omega, fun h => h1 ⟨h.1, h.2.1⟩⟩

/-- The diagonals of the forward sweep in iteration `L`. -/
def Box.KF (b : Box) (L k : Int) : Prop := b.fmin L ≤ k ∧ k ≤ b.fmax L ∧ (b.fmax L - k) % 2 = 0
/-- The diagonals of the backward sweep in iteration `L`. -/
def Box.KB (b : Box) (L k : Int) : Prop := b.bmin L ≤ k ∧ k ≤ b.bmax L ∧ (b.bmax L - k) % 2 = 0

instance (b : Box) (L k : Int) : Decidable (b.KF L k) := inferInstanceAs (Decidable (_ ∧ _))
instance (b : Box) (L k : Int) : Decidable (b.KB L k) := inferInstanceAs (Decidable (_ ∧ _))

/-- Sentinels written. -/
def sentF (b : Box) (L : Int) (G : Int → Int) (k : Int) : Int := if k = b.fmin L - 1 ∨ k = b.fmax L + 1 then b.xb - 1 else G k
/-- Sentinels written. -/
def sentB (b : Box) (L : Int) (G : Int → Int) (k : Int) : Int := if k = b.bmin L - 1 ∨ k = b.bmax L + 1 then b.xe + 1 else G k

/-- The new value on diagonal `k` in a forward sweep. -/
def newF (X Y : Int → Nat) (b : Box) (G : Int → Int) (k : Int) : Int := snakeF X Y b k (max (G (k - 1) + 1) (G (k + 1)))
/-- The new value on diagonal `k` in a backward sweep. -/
def newB (X Y : Int → Nat) (b : Box) (G : Int → Int) (k : Int) : Int := snakeB X Y b k (min (G (k - 1)) (G (k + 1) - 1))

/-- `fdiag` after `L` iterations. -/
def FS (X Y : Int → Nat) (b : Box) : Nat → Int → Int
  | 0 => fun _ => b.xb
  | L + 1 => fun k => if b.KF L k then newF X Y b (sentF b L (FS X Y b L)) k else sentF b L (FS X Y b L) k

/-- `bdiag` after `L` iterations. -/
def BS (X Y : Int → Nat) (b : Box) : Nat → Int → Int
  | 0 => fun _ => b.xe
  | L + 1 => fun k => if b.KB L k then newB X Y b (sentB b L (BS X Y b L)) k else sentB b L (BS X Y b L) k

theorem FS_in (X Y : Int → Nat) (b : Box) (L : Nat) (k : Int) (h : b.KF L k) :
    FS X Y b (L + 1) k = snakeF X Y b k (max (sentF b L (FS X Y b L) (k - 1) + 1) (sentF b L (FS X Y b L) (k + 1))) := by
  simp only [FS, if_pos h, newF]

theorem FS_out (X Y : Int → Nat) (b : Box) (L : Nat) (k : Int) (h : ¬ b.KF L k) :
    FS X Y b (L + 1) k = sentF b L (FS X Y b L) k := by
  simp only [FS, if_neg h]

theorem BS_in (X Y : Int → Nat) (b : Box) (L : Nat) (k : Int) (h : b.KB L k) :
    BS X Y b (L + 1) k = snakeB X Y b k (min (sentB b L (BS X Y b L) (k - 1)) (sentB b L (BS X Y b L) (k + 1) - 1)) := by
  simp only [BS, if_pos h, newB]

theorem BS_out (X Y : Int → Nat) (b : Box) (L : Nat) (k : Int) (h : ¬ b.KB L k) :
    BS X Y b (L + 1) k = sentB b L (BS X Y b L) k := by
  simp only [BS, if_neg h]

theorem sentF_at (b : Box) (L : Int) (G : Int → Int) (k : Int) (h : k = b.fmin L - 1 ∨ k = b.fmax L + 1) : sentF b L G k = b.xb - 1 := if_pos h
theorem sentF_off (b : Box) (L : Int) (G : Int → Int) (k : Int) (h : ¬ (k = b.fmin L - 1 ∨ k = b.fmax L + 1)) : sentF b L G k = G k := if_neg h
theorem sentB_at (b : Box) (L : Int) (G : Int → Int) (k : Int) (h : k = b.bmin L - 1 ∨ k = b.bmax L + 1) : sentB b L G k = b.xe + 1 := if_pos h
theorem sentB_off (b : Box) (L : Int) (G : Int → Int) (k : Int) (h : ¬ (k = b.bmin L - 1 ∨ k = b.bmax L + 1)) : sentB b L G k = G k := if_neg h

/-- Unfold all bounds and decide. -/
macro "bounds" : tactic => `(tactic| (simp only [Box.KF, Box.KB, Box.fmin, Box.fmax, Box.bmin, Box.bmax, Box.dmin, Box.dmax, Box.fmid, Box.bmid] at *; omega))

section
variable (X Y : Int → Nat) (b : Box) (hN : b.xb < b.xe) (hM : b.yb < b.ye)
include hN hM

/-- Visited diagonals: all near the middle, and those of one parity further below. -/
def Vis (b : Box) (k : Int) : Prop := b.fmid - (b.xe - b.xb) ≤ k ∨ (b.dmax - k) % 2 = 0

theorem FS_sentinel (L : Nat) : FS X Y b (L + 1) (b.fmin L - 1) = b.xb - 1 ∧ FS X Y b (L + 1) (b.fmax L + 1) = b.xb - 1 := by
  constructor
  · rw [FS_out _ _ _ _ _ (by bounds), sentF_at _ _ _ _ (by omega)]
  · rw [FS_out _ _ _ _ _ (by bounds), sentF_at _ _ _ _ (by omega)]

theorem FS_range (L : Nat) : ∀ k, b.fmin L ≤ k → k ≤ b.fmax L →
    (Vis b k → b.xb ≤ FS X Y b (L + 1) k ∧ b.yb + k ≤ FS X Y b (L + 1) k) ∧ (¬ Vis b k → FS X Y b (L + 1) k = b.xb - 1) := by
  induction L with
  | zero =>
    intro k h1 h2
    have hk : k = b.fmid := by bounds
    subst hk
    have hv : Vis b b.fmid := by left; omega
    refine ⟨fun _ => ?_, fun h => absurd hv h⟩
    rw [FS_in _ _ _ _ _ (by bounds)]
    rw [sentF_at _ _ _ _ (by bounds), sentF_at _ _ _ _ (by bounds)]
    have := (snakeF_spec X Y b b.fmid (max (b.xb - 1 + 1) (b.xb - 1))).1
    simp only [Box.fmid] at *
    omega
  | succ L ih =>
    intro k h1 h2
    have hge : ∀ j, b.fmin (L + 1 : Nat) - 1 ≤ j → j ≤ b.fmax (L + 1 : Nat) + 1 → b.xb - 1 ≤ sentF b (L + 1 : Nat) (FS X Y b (L + 1)) j := by
      intro j g1 g2
      by_cases hs : j = b.fmin (L + 1 : Nat) - 1 ∨ j = b.fmax (L + 1 : Nat) + 1
      · rw [sentF_at _ _ _ _ hs]; omega
      · rw [sentF_off _ _ _ _ hs]
        by_cases hr : b.fmin L ≤ j ∧ j ≤ b.fmax L
        · obtain ⟨i1, i2⟩ := ih j hr.1 hr.2
          by_cases hv : Vis b j
          · have := (i1 hv).1; omega
          · rw [i2 hv]; omega
        · obtain ⟨s1, s2⟩ := FS_sentinel X Y b hN hM L
          have : j = b.fmin L - 1 ∨ j = b.fmax L + 1 := by bounds
          rcases this with rfl | rfl
          · rw [s1]; omega
          · rw [s2]; omega
    by_cases hK : b.KF (L + 1 : Nat) k
    · have hv : Vis b k := by simp only [Vis]; bounds
      refine ⟨fun _ => ?_, fun h => absurd hv h⟩
      rw [FS_in _ _ _ _ _ hK]
      have s := (snakeF_spec X Y b k (max (sentF b (L + 1 : Nat) (FS X Y b (L + 1)) (k - 1) + 1) (sentF b (L + 1 : Nat) (FS X Y b (L + 1)) (k + 1)))).1
      have g1 := hge (k - 1) (by omega) (by omega)
      refine ⟨by omega, ?_⟩
      by_cases hf : k ≤ b.fmid
      · simp only [Box.fmid] at hf; omega
      · have e : sentF b (L + 1 : Nat) (FS X Y b (L + 1)) (k - 1) = FS X Y b (L + 1) (k - 1) := sentF_off _ _ _ _ (by bounds)
        have := ((ih (k - 1) (by bounds) (by bounds)).1 (by left; bounds)).2
        omega
    · have e : FS X Y b (L + 1 + 1) k = FS X Y b (L + 1) k := by
        rw [FS_out _ _ _ _ _ hK, sentF_off _ _ _ _ (by omega)]
      rw [e]
      by_cases hr : b.fmin L ≤ k ∧ k ≤ b.fmax L
      · exact ih k hr.1 hr.2
      · have hk : k = b.fmin L - 1 := by bounds
        have hnv : ¬ Vis b k := by simp only [Vis]; bounds
        refine ⟨fun h => absurd h hnv, fun _ => ?_⟩
        rw [hk]; exact (FS_sentinel X Y b hN hM L).1

/-- A cell on entry to the forward sweep of iteration `L`. -/
def FG (X Y : Int → Nat) (b : Box) (L : Nat) (k : Int) : Int := sentF b L (FS X Y b L) k
/-- A cell on entry to the backward sweep of iteration `L`. -/
def BG (X Y : Int → Nat) (b : Box) (L : Nat) (k : Int) : Int := sentB b L (BS X Y b L) k

omit hN hM in
theorem FG_at (L : Nat) (k : Int) (h : k = b.fmin L - 1 ∨ k = b.fmax L + 1) : FG X Y b L k = b.xb - 1 := if_pos h
omit hN hM in
theorem FG_off (L : Nat) (k : Int) (h : b.fmin L ≤ k) (h' : k ≤ b.fmax L) : FG X Y b L k = FS X Y b L k := if_neg (by omega)
omit hN hM in
theorem BG_at (L : Nat) (k : Int) (h : k = b.bmin L - 1 ∨ k = b.bmax L + 1) : BG X Y b L k = b.xe + 1 := if_pos h
omit hN hM in
theorem BG_off (L : Nat) (k : Int) (h : b.bmin L ≤ k) (h' : k ≤ b.bmax L) : BG X Y b L k = BS X Y b L k := if_neg (by omega)

omit hN hM in
theorem FS_step (L : Nat) (k : Int) (h : b.KF L k) :
    FG X Y b L (k - 1) + 1 ≤ FS X Y b (L + 1) k ∧ FG X Y b L (k + 1) ≤ FS X Y b (L + 1) k ∧
    ((FS X Y b (L + 1) k = FG X Y b L (k - 1) + 1 ∨ FS X Y b (L + 1) k = FG X Y b L (k + 1)) ∨
      (FS X Y b (L + 1) k ≤ b.xe ∧ FS X Y b (L + 1) k - k ≤ b.ye ∧ X (FS X Y b (L + 1) k - 1) = Y (FS X Y b (L + 1) k - 1 - k))) ∧
    ¬ (FS X Y b (L + 1) k < b.xe ∧ FS X Y b (L + 1) k - k < b.ye ∧ X (FS X Y b (L + 1) k) = Y (FS X Y b (L + 1) k - k)) := by
  have e : FS X Y b (L + 1) k = snakeF X Y b k (max (FG X Y b L (k - 1) + 1) (FG X Y b L (k + 1))) := FS_in X Y b L k h
  rw [e]
  have s := snakeF_spec X Y b k (max (FG X Y b L (k - 1) + 1) (FG X Y b L (k + 1)))
  obtain ⟨s1, s2, s3⟩ := s
  refine ⟨by omega, by omega, ?_, s3⟩
  by_cases hs : max (FG X Y b L (k - 1) + 1) (FG X Y b L (k + 1)) < snakeF X Y b k (max (FG X Y b L (k - 1) + 1) (FG X Y b L (k + 1)))
  · exact Or.inr (s2 hs)
  · left; omega

omit hN hM in
theorem BS_step (L : Nat) (k : Int) (h : b.KB L k) :
    BS X Y b (L + 1) k ≤ BG X Y b L (k - 1) ∧ BS X Y b (L + 1) k ≤ BG X Y b L (k + 1) - 1 ∧
    ((BS X Y b (L + 1) k = BG X Y b L (k - 1) ∨ BS X Y b (L + 1) k = BG X Y b L (k + 1) - 1) ∨
      (b.xb ≤ BS X Y b (L + 1) k ∧ b.yb ≤ BS X Y b (L + 1) k - k ∧ X (BS X Y b (L + 1) k) = Y (BS X Y b (L + 1) k - k))) ∧
    ¬ (b.xb < BS X Y b (L + 1) k ∧ b.yb < BS X Y b (L + 1) k - k ∧ X (BS X Y b (L + 1) k - 1) = Y (BS X Y b (L + 1) k - 1 - k)) := by
  have e : BS X Y b (L + 1) k = snakeB X Y b k (min (BG X Y b L (k - 1)) (BG X Y b L (k + 1) - 1)) := BS_in X Y b L k h
  rw [e]
  have s := snakeB_spec X Y b k (min (BG X Y b L (k - 1)) (BG X Y b L (k + 1) - 1))
  obtain ⟨s1, s2, s3⟩ := s
  refine ⟨by omega, by omega, ?_, s3⟩
  by_cases hs : snakeB X Y b k (min (BG X Y b L (k - 1)) (BG X Y b L (k + 1) - 1)) < min (BG X Y b L (k - 1)) (BG X Y b L (k + 1) - 1)
  · exact Or.inr (s2 hs)
  · left; omega

omit hN hM in
theorem FS_keep (L : Nat) (k : Int) (h : ¬ b.KF L k) (h1 : b.fmin L ≤ k) (h2 : k ≤ b.fmax L) : FS X Y b (L + 1) k = FS X Y b L k := by
  rw [FS_out _ _ _ _ _ h]; exact FG_off X Y b L k h1 h2
omit hN hM in
theorem BS_keep (L : Nat) (k : Int) (h : ¬ b.KB L k) (h1 : b.bmin L ≤ k) (h2 : k ≤ b.bmax L) : BS X Y b (L + 1) k = BS X Y b L k := by
  rw [BS_out _ _ _ _ _ h]; exact BG_off X Y b L k h1 h2

theorem FS_bottom (L : Nat) : ∀ k, (k = b.fmid - L ∨ k = b.fmid - L + 1) → b.dmin ≤ k → FS X Y b (L + 1) k ≤ b.xe := by
  induction L with
  | zero =>
    intro k h1 h2
    rcases h1 with h1 | h1
    · obtain ⟨-, -, s3, -⟩ := FS_step X Y b 0 k (by bounds)
      rw [FG_at X Y b 0 (k - 1) (by bounds), FG_at X Y b 0 (k + 1) (by bounds)] at s3
      omega
    · have := (FS_sentinel X Y b hN hM 0).2
      have e : k = b.fmax (0 : Nat) + 1 := by bounds
      rw [e, this]; omega
  | succ L ih =>
    intro k h1 h2
    by_cases hK : b.KF (L + 1 : Nat) k
    · obtain ⟨-, -, s3, -⟩ := FS_step X Y b (L + 1) k hK
      have a1 : FG X Y b (L + 1) (k - 1) = b.xb - 1 := by
        by_cases hs : k - 1 = b.fmin (L + 1 : Nat) - 1
        · exact FG_at X Y b (L + 1) (k - 1) (Or.inl hs)
        · rw [FG_off X Y b (L + 1) (k - 1) (by bounds) (by bounds)]
          have e : k - 1 = b.fmin L - 1 := by bounds
          rw [e, (FS_sentinel X Y b hN hM L).1]
      have a2 : FG X Y b (L + 1) (k + 1) ≤ b.xe := by
        by_cases hs : k + 1 = b.fmax (L + 1 : Nat) + 1
        · rw [FG_at X Y b (L + 1) (k + 1) (Or.inr hs)]; omega
        · rw [FG_off X Y b (L + 1) (k + 1) (by bounds) (by bounds)]
          exact ih (k + 1) (by omega) (by omega)
      omega
    · by_cases hr : k ≤ b.fmax (L + 1 : Nat)
      · rw [FS_keep X Y b (L + 1) k hK (by bounds) hr]
        rcases h1 with h1 | h1
        · have e : k = b.fmin L - 1 := by bounds
          rw [e, (FS_sentinel X Y b hN hM L).1]; omega
        · exact ih k (by omega) h2
      · exfalso; bounds

theorem FS_top (L : Nat) : ∀ k, (k = b.fmid + L ∨ k = b.fmid + L - 1) → k ≤ b.dmax → FS X Y b (L + 1) k - k ≤ b.ye := by
  induction L with
  | zero =>
    intro k h1 h2
    rcases h1 with h1 | h1
    · obtain ⟨-, -, s3, -⟩ := FS_step X Y b 0 k (by bounds)
      rw [FG_at X Y b 0 (k - 1) (by bounds), FG_at X Y b 0 (k + 1) (by bounds)] at s3
      simp only [Box.fmid] at *
      omega
    · have := (FS_sentinel X Y b hN hM 0).1
      have e : k = b.fmin (0 : Nat) - 1 := by bounds
      rw [← e] at this
      rw [this]; simp only [Box.fmid] at *; omega
  | succ L ih =>
    intro k h1 h2
    have hk : b.xb - k ≤ b.ye := by bounds
    by_cases hK : b.KF (L + 1 : Nat) k
    · obtain ⟨-, -, s3, -⟩ := FS_step X Y b (L + 1) k hK
      have a1 : FG X Y b (L + 1) (k + 1) ≤ b.xb - 1 := by
        by_cases hs : k + 1 = b.fmax (L + 1 : Nat) + 1
        · rw [FG_at X Y b (L + 1) (k + 1) (Or.inr hs)]; omega
        · exfalso; bounds
      have a2 : FG X Y b (L + 1) (k - 1) - (k - 1) ≤ b.ye := by
        by_cases hs : k - 1 = b.fmin (L + 1 : Nat) - 1
        · rw [FG_at X Y b (L + 1) (k - 1) (Or.inl hs)]; omega
        · rw [FG_off X Y b (L + 1) (k - 1) (by bounds) (by bounds)]
          exact ih (k - 1) (by omega) (by omega)
      omega
    · by_cases hr : b.fmin (L + 1 : Nat) ≤ k ∧ k ≤ b.fmax (L + 1 : Nat)
      · rw [FS_keep X Y b (L + 1) k hK hr.1 hr.2]
        exact ih k (by bounds) h2
      · exfalso; bounds

end

end Verif.Diff
