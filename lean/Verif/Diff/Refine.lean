import Verif.Diff.Hits

/-!
# `FindEditMidPoint` computes the first meeting point
-/

set_option linter.unusedVariables false
set_option linter.unusedSectionVars false
set_option linter.unusedSimpArgs false
set_option maxHeartbeats 1000000

namespace Verif.Diff

/-- The line number at a position. -/
def lineAt (v : List Nat) (i : Int) : Nat := v.getD i.toNat 0

/-- The box lies in the two arrays. -/
structure Box.Inside (b : Box) (X Y : List Nat) : Prop where
  xb : 0 ≤ b.xb
  yb : 0 ≤ b.yb
  xe : b.xe ≤ X.length
  ye : b.ye ≤ Y.length

theorem readLine_ok (v : List Nat) (i : Int) (h1 : 0 ≤ i) (h2 : i < v.length) : readLine v i = .ok (lineAt v i) := by
  rw [readLine, if_pos ⟨h1, h2⟩]; rfl

theorem snakeForward_ok (X Y : List Nat) (b : Box) (hI : b.Inside X Y) (k : Int) : ∀ n : Nat, ∀ x, (b.xe - x).toNat ≤ n → b.xb ≤ x → b.yb ≤ x - k →
    snakeForward X Y b x (x - k) = .ok (snakeF (lineAt X) (lineAt Y) b k x) := by
  obtain ⟨i1, i2, i3, i4⟩ := hI
  intro n
  induction n with
  | zero =>
    intro x h h1 h2
    rw [snakeForward, snakeF, if_neg (by omega), if_neg (by omega)]
  | succ n ih =>
    intro x h h1 h2
    rw [snakeForward, snakeF]
    by_cases hc : x < b.xe ∧ x - k < b.ye
    · rw [if_pos hc, if_pos hc, readLine_ok X x (by omega) (by omega), readLine_ok Y (x - k) (by omega) (by omega)]
      simp only
      by_cases he : lineAt X x = lineAt Y (x - k)
      · rw [if_pos he, if_pos he, show x - k + 1 = x + 1 - k by omega]
        exact ih (x + 1) (by omega) (by omega) (by omega)
      · rw [if_neg he, if_neg he]
    · rw [if_neg hc, if_neg hc]

theorem snakeBackward_ok (X Y : List Nat) (b : Box) (hI : b.Inside X Y) (k : Int) : ∀ n : Nat, ∀ x, (x - b.xb).toNat ≤ n → x ≤ b.xe → x - k ≤ b.ye →
    snakeBackward X Y b x (x - k) = .ok (snakeB (lineAt X) (lineAt Y) b k x) := by
  obtain ⟨i1, i2, i3, i4⟩ := hI
  intro n
  induction n with
  | zero =>
    intro x h h1 h2
    rw [snakeBackward, snakeB, if_neg (by omega), if_neg (by omega)]
  | succ n ih =>
    intro x h h1 h2
    rw [snakeBackward, snakeB]
    by_cases hc : b.xb < x ∧ b.yb < x - k
    · rw [if_pos hc, if_pos hc, readLine_ok X (x - 1) (by omega) (by omega), readLine_ok Y (x - k - 1) (by omega) (by omega)]
      simp only
      rw [show x - k - 1 = x - 1 - k by omega]
      by_cases he : lineAt X (x - 1) = lineAt Y (x - 1 - k)
      · rw [if_pos he, if_pos he]
        exact ih (x - 1) (by omega) (by omega) (by omega)
      · rw [if_neg he, if_neg he]
    · rw [if_neg hc, if_neg hc]

theorem Buf.get_ok (b : Buf) (p v : Int) (h1 : 0 ≤ p) (h2 : p < b.size) (h3 : b.cell p = some v) : b.get p = .ok v := by
  simp only [Buf.get, h3]; rw [if_pos ⟨h1, h2⟩]

theorem Buf.set_ok (b : Buf) (p v : Int) (h1 : 0 ≤ p) (h2 : p < b.size) :
    b.set p v = .ok { b with cell := fun q => if q = p then some v else b.cell q } := by
  rw [Buf.set, if_pos ⟨h1, h2⟩]

section
variable (X Y : Int → Nat) (b : Box) (hN : b.xb < b.xe) (hM : b.yb < b.ye)
include hN hM

theorem FG_ge (L : Nat) (k : Int) (h1 : b.fmin L - 1 ≤ k) (h2 : k ≤ b.fmax L + 1) : b.xb - 1 ≤ FG X Y b L k := by
  by_cases hs : k = b.fmin L - 1 ∨ k = b.fmax L + 1
  · rw [FG_at X Y b L k hs]; omega
  · rw [FG_off X Y b L k (by omega) (by omega)]
    rcases L with _ | L
    · show b.xb - 1 ≤ b.xb; omega
    · by_cases hr : b.fmin L ≤ k ∧ k ≤ b.fmax L
      · obtain ⟨r1, r2⟩ := FS_range X Y b hN hM L k hr.1 hr.2
        by_cases hv : Vis b k
        · have := (r1 hv).1; omega
        · rw [r2 hv]; omega
      · have : k = b.fmin L - 1 ∨ k = b.fmax L + 1 := by bounds
        obtain ⟨s1, s2⟩ := FS_sentinel X Y b hN hM L
        rcases this with rfl | rfl
        · rw [s1]; omega
        · rw [s2]; omega

theorem FG_start (L : Nat) (k : Int) (hK : b.KF L k) : b.xb ≤ max (FG X Y b L (k - 1) + 1) (FG X Y b L (k + 1)) ∧
    b.yb + k ≤ max (FG X Y b L (k - 1) + 1) (FG X Y b L (k + 1)) := by
  have g := FG_ge X Y b hN hM L (k - 1) (by bounds) (by bounds)
  refine ⟨by omega, ?_⟩
  by_cases hf : k ≤ b.fmid
  · simp only [Box.fmid] at hf; omega
  · rcases L with _ | L
    · exfalso; bounds
    · rw [FG_off X Y b (L + 1) (k - 1) (by bounds) (by bounds)]
      have := ((FS_range X Y b hN hM L (k - 1) (by bounds) (by bounds)).1 (by left; bounds)).2
      omega

theorem BG_start (L : Nat) (hc : 3 ≤ (b.xe - b.xb) + (b.ye - b.yb) ∨ L ≤ 1) (k : Int) (hK : b.KB L k) :
    min (BG X Y b L (k - 1)) (BG X Y b L (k + 1) - 1) ≤ b.xe ∧ min (BG X Y b L (k - 1)) (BG X Y b L (k + 1) - 1) - k ≤ b.ye := by
  rcases L with _ | L
  · have hk : k = b.bmid := by bounds
    rw [BG_at X Y b 0 (k - 1) (by bounds), BG_at X Y b 0 (k + 1) (by bounds)]
    simp only [Box.bmid] at hk
    omega
  · by_cases hu : k + 1 ≤ b.bmax (L + 1 : Nat)
    · rw [BG_off X Y b (L + 1) (k + 1) (by bounds) hu]
      have := BS_cap X Y b hN hM L (by omega) (k + 1) (by bounds) (by bounds)
      omega
    · have hd : b.bmin (L + 1 : Nat) ≤ k - 1 := by bounds
      rw [BG_off X Y b (L + 1) (k - 1) hd (by bounds)]
      have := BS_cap X Y b hN hM L (by omega) (k - 1) (by bounds) (by bounds)
      omega

end

/-- The buffer on entry to an iteration or between two sweeps: `G` on the diagonals `[flo, fhi]` of the forward search, `H` on those of the backward search. -/
structure Holds (b : Box) (buf : Buf) (flo fhi blo bhi : Int) (G H : Int → Int) : Prop where
  size : 2 * (b.dmax - b.dmin) + 6 ≤ buf.size
  f : ∀ k, flo ≤ k → k ≤ fhi → buf.cell (b.fpos k) = some (G k)
  b : ∀ k, blo ≤ k → k ≤ bhi → buf.cell (b.bpos k) = some (H k)

/-- Unfold positions and bounds, and decide. -/
macro "posns" : tactic => `(tactic| (simp only [Box.fpos, Box.bpos, Box.KF, Box.KB, Box.fmin, Box.fmax, Box.bmin, Box.bmax, Box.dmin, Box.dmax, Box.fmid, Box.bmid] at *; omega))

theorem Box.odd_iff (b : Box) : b.odd = true ↔ (b.fmid - b.bmid) % 2 = 1 := by
  simp only [Box.odd, decide_eq_true_eq]; omega

theorem forwardSweep_ok (X Y : List Nat) (b : Box) (hN : b.xb < b.xe) (hM : b.yb < b.ye) (hI : b.Inside X Y) (L : Nat) (S : Int) : ∀ n : Nat, ∀ k buf,
    (k - b.fmin L + 3).toNat ≤ n → k ≤ b.fmax L → b.fmin L - 2 ≤ k → (b.fmax L - k) % 2 = 0 → buf.size = S →
    Holds b buf (b.fmin L - 1) (b.fmax L + 1) (b.bmin L) (b.bmax L)
      (fun j => if k < j then FS (lineAt X) (lineAt Y) b (L + 1) j else FG (lineAt X) (lineAt Y) b L j) (BS (lineAt X) (lineAt Y) b L) →
    (∃ j buf', j ≤ k ∧ oddHit (lineAt X) (lineAt Y) b L j ∧ buf'.size = S ∧
      forwardSweep X Y b (b.fmin L) (b.bmin L) (b.bmax L) k buf =
        .ok (.found (FS (lineAt X) (lineAt Y) b (L + 1) j) (FS (lineAt X) (lineAt Y) b (L + 1) j - j) buf')) ∨
    ((∀ j, j ≤ k → ¬ oddHit (lineAt X) (lineAt Y) b L j) ∧ ∃ buf', buf'.size = S ∧
      forwardSweep X Y b (b.fmin L) (b.bmin L) (b.bmax L) k buf = .ok (.swept buf') ∧
      Holds b buf' (b.fmin L - 1) (b.fmax L + 1) (b.bmin L) (b.bmax L) (FS (lineAt X) (lineAt Y) b (L + 1)) (BS (lineAt X) (lineAt Y) b L)) := by
  intro n
  induction n with
  | zero => intro k buf h1 h2 h3; omega
  | succ n ih =>
    intro k buf h1 h2 h3 h4 hS hH
    rw [forwardSweep]
    by_cases hk : b.fmin L ≤ k
    · rw [if_pos hk]
      have hK : b.KF L k := ⟨hk, h2, h4⟩
      have c1 := hH.f (k - 1) (by omega) (by omega)
      have c2 := hH.f (k + 1) (by omega) (by omega)
      have hsz := hH.size
      simp only [if_neg (show ¬ k < k - 1 by omega)] at c1
      have c2 : buf.cell (b.fpos (k + 1)) = some (FG (lineAt X) (lineAt Y) b L (k + 1)) := by
        rw [c2]
        simp only [if_pos (show k < k + 1 by omega)]
        rw [FS_out (lineAt X) (lineAt Y) b L (k + 1) (by clear ih; posns)]
        rfl
      have g1 := buf.get_ok (b.fpos (k - 1)) _ (by clear ih; posns) (by clear ih; posns) c1
      have g2 := buf.get_ok (b.fpos (k + 1)) _ (by clear ih; posns) (by clear ih; posns) c2
      have hmax : (if FG (lineAt X) (lineAt Y) b L (k - 1) < FG (lineAt X) (lineAt Y) b L (k + 1) then FG (lineAt X) (lineAt Y) b L (k + 1) else FG (lineAt X) (lineAt Y) b L (k - 1) + 1) =
          max (FG (lineAt X) (lineAt Y) b L (k - 1) + 1) (FG (lineAt X) (lineAt Y) b L (k + 1)) := by split <;> omega
      have st := FG_start (lineAt X) (lineAt Y) b hN hM L k hK
      have sn := snakeForward_ok X Y b hI k _ (max (FG (lineAt X) (lineAt Y) b L (k - 1) + 1) (FG (lineAt X) (lineAt Y) b L (k + 1))) (Nat.le_refl _) st.1 (by omega)
      have e : FS (lineAt X) (lineAt Y) b (L + 1) k = snakeF (lineAt X) (lineAt Y) b k (max (FG (lineAt X) (lineAt Y) b L (k - 1) + 1) (FG (lineAt X) (lineAt Y) b L (k + 1))) := FS_in _ _ b L k hK
      rw [← e] at sn
      have sv := buf.set_ok (b.fpos k) (FS (lineAt X) (lineAt Y) b (L + 1) k) (by clear ih; posns) (by clear ih; posns)
      simp only [g1, g2, bind, Except.bind, hmax, sn, sv]
      generalize hbuf : ({ buf with cell := fun q => if q = b.fpos k then some (FS (lineAt X) (lineAt Y) b (L + 1) k) else buf.cell q } : Buf) = buf1
      have hS1 : buf1.size = S := by rw [← hbuf]; exact hS
      have hB1 : ∀ j, b.bmin L ≤ j → j ≤ b.bmax L → buf1.cell (b.bpos j) = some (BS (lineAt X) (lineAt Y) b L j) := by
        intro j j1 j2
        rw [← hbuf]
        simp only
        rw [if_neg (by clear ih; posns)]
        exact hH.b j j1 j2
      have hH1 : Holds b buf1 (b.fmin L - 1) (b.fmax L + 1) (b.bmin L) (b.bmax L)
          (fun j => if k - 2 < j then FS (lineAt X) (lineAt Y) b (L + 1) j else FG (lineAt X) (lineAt Y) b L j) (BS (lineAt X) (lineAt Y) b L) := by
        refine ⟨by rw [hS1, ← hS]; exact hsz, fun j j1 j2 => ?_, hB1⟩
        have old := hH.f j j1 j2
        rw [← hbuf]
        simp only
        by_cases hj : j = k
        · subst hj
          rw [if_pos rfl, if_pos (by omega)]
        · rw [if_neg (by clear ih; posns), old]
          by_cases hj1 : j = k - 1
          · subst hj1
            rw [if_neg (by omega), if_pos (by omega), FS_out (lineAt X) (lineAt Y) b L (k - 1) (by clear ih; posns)]
            rfl
          · by_cases hj2 : k < j
            · rw [if_pos hj2, if_pos (by omega)]
            · rw [if_neg hj2, if_neg (by omega)]
      have go := ih (k - 2) buf1 (by omega) (by omega) (by omega) (by omega) hS1 hH1
      have cont : ¬ oddHit (lineAt X) (lineAt Y) b L k →
        ((∃ j buf', j ≤ k ∧ oddHit (lineAt X) (lineAt Y) b L j ∧ buf'.size = S ∧
          forwardSweep X Y b (b.fmin L) (b.bmin L) (b.bmax L) (k - 2) buf1 =
            .ok (.found (FS (lineAt X) (lineAt Y) b (L + 1) j) (FS (lineAt X) (lineAt Y) b (L + 1) j - j) buf')) ∨
        ((∀ j, j ≤ k → ¬ oddHit (lineAt X) (lineAt Y) b L j) ∧ ∃ buf', buf'.size = S ∧
          forwardSweep X Y b (b.fmin L) (b.bmin L) (b.bmax L) (k - 2) buf1 = .ok (.swept buf') ∧
          Holds b buf' (b.fmin L - 1) (b.fmax L + 1) (b.bmin L) (b.bmax L) (FS (lineAt X) (lineAt Y) b (L + 1)) (BS (lineAt X) (lineAt Y) b L))) := by
        intro hn
        rcases go with ⟨j, buf', j1, j2, j3, j4⟩ | ⟨j1, buf', j2, j3, j4⟩
        · exact Or.inl ⟨j, buf', by omega, j2, j3, j4⟩
        · refine Or.inr ⟨fun j hj => ?_, buf', j2, j3, j4⟩
          by_cases hj1 : j ≤ k - 2
          · exact j1 j hj1
          · by_cases hj2 : j = k
            · subst hj2; exact hn
            · rintro ⟨-, q, -⟩
              have : j = k - 1 := by omega
              subst this
              clear ih j1; posns
      by_cases hc : b.odd = true ∧ b.bmin L ≤ k ∧ k ≤ b.bmax L
      · rw [if_pos hc]
        have gz := buf1.get_ok (b.bpos k) _ (by clear ih go cont; posns) (by rw [hS1, ← hS]; clear ih go cont; posns) (hB1 k hc.2.1 hc.2.2)
        simp only [gz]
        by_cases hz : BS (lineAt X) (lineAt Y) b L k ≤ FS (lineAt X) (lineAt Y) b (L + 1) k
        · rw [if_pos hz]
          exact Or.inl ⟨k, buf1, by omega, ⟨(b.odd_iff).mp hc.1, hK, hc.2.1, hc.2.2, hz⟩, hS1, rfl⟩
        · rw [if_neg hz]
          exact cont (fun h => hz h.2.2.2.2)
      · rw [if_neg hc]
        exact cont (fun h => hc ⟨(b.odd_iff).mpr h.1, h.2.2.1, h.2.2.2.1⟩)
    · rw [if_neg hk]
      refine Or.inr ⟨fun j hj h => ?_, buf, hS, rfl, hH.size, fun j j1 j2 => ?_, hH.b⟩
      · exact absurd h.2.1.1 (by omega)
      · rw [hH.f j j1 j2]
        by_cases hj : k < j
        · simp only [if_pos hj]
        · simp only [if_neg hj]
          have : j = b.fmin L - 1 := by omega
          rw [this, FS_out (lineAt X) (lineAt Y) b L _ (by clear ih; posns)]
          rfl

theorem backwardSweep_ok (X Y : List Nat) (b : Box) (hN : b.xb < b.xe) (hM : b.yb < b.ye) (hI : b.Inside X Y) (L : Nat)
    (hc : 3 ≤ (b.xe - b.xb) + (b.ye - b.yb) ∨ L ≤ 1) (S : Int) : ∀ n : Nat, ∀ k buf,
    (k - b.bmin L + 3).toNat ≤ n → k ≤ b.bmax L → b.bmin L - 2 ≤ k → (b.bmax L - k) % 2 = 0 → buf.size = S →
    Holds b buf (b.fmin (L + 1 : Nat)) (b.fmax (L + 1 : Nat)) (b.bmin L - 1) (b.bmax L + 1)
      (FS (lineAt X) (lineAt Y) b (L + 1)) (fun j => if k < j then BS (lineAt X) (lineAt Y) b (L + 1) j else BG (lineAt X) (lineAt Y) b L j) →
    (∃ j buf', j ≤ k ∧ evenHit (lineAt X) (lineAt Y) b L j ∧ (∀ j', j < j' → j' ≤ k → ¬ evenHit (lineAt X) (lineAt Y) b L j') ∧ buf'.size = S ∧
      backwardSweep X Y b (b.bmin L) (b.fmin (L + 1 : Nat)) (b.fmax (L + 1 : Nat)) k buf =
        .ok (.found (BS (lineAt X) (lineAt Y) b (L + 1) j) (BS (lineAt X) (lineAt Y) b (L + 1) j - j) buf')) ∨
    ((∀ j, j ≤ k → ¬ evenHit (lineAt X) (lineAt Y) b L j) ∧ ∃ buf', buf'.size = S ∧
      backwardSweep X Y b (b.bmin L) (b.fmin (L + 1 : Nat)) (b.fmax (L + 1 : Nat)) k buf = .ok (.swept buf') ∧
      Holds b buf' (b.fmin (L + 1 : Nat)) (b.fmax (L + 1 : Nat)) (b.bmin L - 1) (b.bmax L + 1) (FS (lineAt X) (lineAt Y) b (L + 1)) (BS (lineAt X) (lineAt Y) b (L + 1))) := by
  intro n
  induction n with
  | zero => intro k buf h1 h2 h3; omega
  | succ n ih =>
    intro k buf h1 h2 h3 h4 hS hH
    rw [backwardSweep]
    by_cases hk : b.bmin L ≤ k
    · rw [if_pos hk]
      have hK : b.KB L k := ⟨hk, h2, h4⟩
      have c1 := hH.b (k - 1) (by omega) (by omega)
      have c2 := hH.b (k + 1) (by omega) (by omega)
      have hsz := hH.size
      simp only [if_neg (show ¬ k < k - 1 by omega)] at c1
      have c2 : buf.cell (b.bpos (k + 1)) = some (BG (lineAt X) (lineAt Y) b L (k + 1)) := by
        rw [c2]
        simp only [if_pos (show k < k + 1 by omega)]
        rw [BS_out (lineAt X) (lineAt Y) b L (k + 1) (by clear ih; posns)]
        rfl
      have g1 := buf.get_ok (b.bpos (k - 1)) _ (by clear ih; posns) (by clear ih; posns) c1
      have g2 := buf.get_ok (b.bpos (k + 1)) _ (by clear ih; posns) (by clear ih; posns) c2
      have hmin : (if BG (lineAt X) (lineAt Y) b L (k - 1) ≥ BG (lineAt X) (lineAt Y) b L (k + 1) then BG (lineAt X) (lineAt Y) b L (k + 1) - 1 else BG (lineAt X) (lineAt Y) b L (k - 1)) =
          min (BG (lineAt X) (lineAt Y) b L (k - 1)) (BG (lineAt X) (lineAt Y) b L (k + 1) - 1) := by split <;> omega
      have st := BG_start (lineAt X) (lineAt Y) b hN hM L hc k hK
      have sn := snakeBackward_ok X Y b hI k _ (min (BG (lineAt X) (lineAt Y) b L (k - 1)) (BG (lineAt X) (lineAt Y) b L (k + 1) - 1)) (Nat.le_refl _) st.1 (by omega)
      have e : BS (lineAt X) (lineAt Y) b (L + 1) k = snakeB (lineAt X) (lineAt Y) b k (min (BG (lineAt X) (lineAt Y) b L (k - 1)) (BG (lineAt X) (lineAt Y) b L (k + 1) - 1)) := BS_in _ _ b L k hK
      rw [← e] at sn
      have sv := buf.set_ok (b.bpos k) (BS (lineAt X) (lineAt Y) b (L + 1) k) (by clear ih; posns) (by clear ih; posns)
      simp only [g1, g2, bind, Except.bind, hmin, sn, sv]
      generalize hbuf : ({ buf with cell := fun q => if q = b.bpos k then some (BS (lineAt X) (lineAt Y) b (L + 1) k) else buf.cell q } : Buf) = buf1
      have hS1 : buf1.size = S := by rw [← hbuf]; exact hS
      have hF1 : ∀ j, b.fmin (L + 1 : Nat) ≤ j → j ≤ b.fmax (L + 1 : Nat) → buf1.cell (b.fpos j) = some (FS (lineAt X) (lineAt Y) b (L + 1) j) := by
        intro j j1 j2
        rw [← hbuf]
        simp only
        rw [if_neg (by clear ih; posns)]
        exact hH.f j j1 j2
      have hH1 : Holds b buf1 (b.fmin (L + 1 : Nat)) (b.fmax (L + 1 : Nat)) (b.bmin L - 1) (b.bmax L + 1)
          (FS (lineAt X) (lineAt Y) b (L + 1)) (fun j => if k - 2 < j then BS (lineAt X) (lineAt Y) b (L + 1) j else BG (lineAt X) (lineAt Y) b L j) := by
        refine ⟨by rw [hS1, ← hS]; exact hsz, hF1, fun j j1 j2 => ?_⟩
        have old := hH.b j j1 j2
        rw [← hbuf]
        simp only
        by_cases hj : j = k
        · subst hj
          rw [if_pos rfl, if_pos (by omega)]
        · rw [if_neg (by clear ih; posns), old]
          by_cases hj1 : j = k - 1
          · subst hj1
            rw [if_neg (by omega), if_pos (by omega), BS_out (lineAt X) (lineAt Y) b L (k - 1) (by clear ih; posns)]
            rfl
          · by_cases hj2 : k < j
            · rw [if_pos hj2, if_pos (by omega)]
            · rw [if_neg hj2, if_neg (by omega)]
      have go := ih (k - 2) buf1 (by omega) (by omega) (by omega) (by omega) hS1 hH1
      have cont : ¬ evenHit (lineAt X) (lineAt Y) b L k →
        ((∃ j buf', j ≤ k ∧ evenHit (lineAt X) (lineAt Y) b L j ∧ (∀ j', j < j' → j' ≤ k → ¬ evenHit (lineAt X) (lineAt Y) b L j') ∧ buf'.size = S ∧
          backwardSweep X Y b (b.bmin L) (b.fmin (L + 1 : Nat)) (b.fmax (L + 1 : Nat)) (k - 2) buf1 =
            .ok (.found (BS (lineAt X) (lineAt Y) b (L + 1) j) (BS (lineAt X) (lineAt Y) b (L + 1) j - j) buf')) ∨
        ((∀ j, j ≤ k → ¬ evenHit (lineAt X) (lineAt Y) b L j) ∧ ∃ buf', buf'.size = S ∧
          backwardSweep X Y b (b.bmin L) (b.fmin (L + 1 : Nat)) (b.fmax (L + 1 : Nat)) (k - 2) buf1 = .ok (.swept buf') ∧
          Holds b buf' (b.fmin (L + 1 : Nat)) (b.fmax (L + 1 : Nat)) (b.bmin L - 1) (b.bmax L + 1) (FS (lineAt X) (lineAt Y) b (L + 1)) (BS (lineAt X) (lineAt Y) b (L + 1)))) := by
        intro hn
        have hn1 : ¬ evenHit (lineAt X) (lineAt Y) b L (k - 1) := by
          rintro ⟨-, q, -⟩
          clear ih go; posns
        rcases go with ⟨j, buf', j1, j2, j3, j4, j5⟩ | ⟨j1, buf', j2, j3, j4⟩
        · refine Or.inl ⟨j, buf', by omega, j2, fun j' q1 q2 => ?_, j4, j5⟩
          by_cases hj1 : j' ≤ k - 2
          · exact j3 j' q1 hj1
          · by_cases hj2 : j' = k
            · subst hj2; exact hn
            · have : j' = k - 1 := by omega
              subst this
              exact hn1
        · refine Or.inr ⟨fun j hj => ?_, buf', j2, j3, j4⟩
          by_cases hj1 : j ≤ k - 2
          · exact j1 j hj1
          · by_cases hj2 : j = k
            · subst hj2; exact hn
            · have : j = k - 1 := by omega
              subst this
              exact hn1
      by_cases hd : ¬ b.odd = true ∧ b.fmin (L + 1 : Nat) ≤ k ∧ k ≤ b.fmax (L + 1 : Nat)
      · rw [if_pos hd]
        have gz := buf1.get_ok (b.fpos k) _ (by clear ih go cont; posns) (by rw [hS1, ← hS]; clear ih go cont; posns) (hF1 k hd.2.1 hd.2.2)
        simp only [gz]
        by_cases hz : BS (lineAt X) (lineAt Y) b (L + 1) k ≤ FS (lineAt X) (lineAt Y) b (L + 1) k
        · rw [if_pos hz]
          refine Or.inl ⟨k, buf1, by omega, ⟨?_, hK, hd.2.1, hd.2.2, hz⟩, fun j' _ _ => by omega, hS1, rfl⟩
          have := hd.1
          rw [b.odd_iff] at this
          omega
        · rw [if_neg hz]
          exact cont (fun h => hz h.2.2.2.2)
      · rw [if_neg hd]
        refine cont (fun h => hd ⟨?_, h.2.2.1, h.2.2.2.1⟩)
        rw [b.odd_iff]
        have := h.1
        omega
    · rw [if_neg hk]
      refine Or.inr ⟨fun j hj h => ?_, buf, hS, rfl, hH.size, hH.f, fun j j1 j2 => ?_⟩
      · exact absurd h.2.1.1 (by omega)
      · rw [hH.b j j1 j2]
        by_cases hj : k < j
        · simp only [if_pos hj]
        · simp only [if_neg hj]
          have : j = b.bmin L - 1 := by omega
          rw [this, BS_out (lineAt X) (lineAt Y) b L _ (by clear ih; posns)]
          rfl

/-- What the search reports: the first meeting point. -/
def Met (X Y : List Nat) (b : Box) (L : Nat) (p : Part) : Prop :=
  (∀ L' < L, ∀ k, ¬ oddHit (lineAt X) (lineAt Y) b L' k ∧ ¬ evenHit (lineAt X) (lineAt Y) b L' k) ∧
  ((∃ k, oddHit (lineAt X) (lineAt Y) b L k ∧ p.xmid = FS (lineAt X) (lineAt Y) b (L + 1) k ∧ p.ymid = FS (lineAt X) (lineAt Y) b (L + 1) k - k ∧ p.length = toUnsigned (2 * (L : Int) - 1)) ∨
   (∃ k, evenHit (lineAt X) (lineAt Y) b L k ∧ (∀ j, k < j → ¬ evenHit (lineAt X) (lineAt Y) b L j) ∧ p.xmid = BS (lineAt X) (lineAt Y) b (L + 1) k ∧
      p.ymid = BS (lineAt X) (lineAt Y) b (L + 1) k - k ∧ p.length = toUnsigned (2 * (L : Int))))

/-- With one line each the searches meet in the second iteration. -/
theorem hit_tiny (X Y : Int → Nat) (b : Box) (hN : b.xb < b.xe) (hM : b.yb < b.ye) (h : ¬ 3 ≤ (b.xe - b.xb) + (b.ye - b.yb)) :
    evenHit X Y b 1 b.dmax := by
  refine ⟨by bounds, by bounds, by bounds, by bounds, ?_⟩
  obtain ⟨s1, -, -, -⟩ := BS_step X Y b 1 b.dmax (by bounds)
  rw [BG_off X Y b 1 (b.dmax - 1) (by bounds) (by bounds)] at s1
  have c := (BS_cap X Y b hN hM 0 (by omega) (b.dmax - 1) (by bounds) (by bounds)).1
  simp only [Nat.zero_add] at c
  have f := ((FS_range X Y b hN hM 1 b.dmax (by bounds) (by bounds)).1 (by right; omega)).2
  have : b.yb + b.dmax = b.xe := by simp only [Box.dmax]; omega
  omega

theorem findLoop_ok (X Y : List Nat) (b : Box) (hN : b.xb < b.xe) (hM : b.yb < b.ye) (hI : b.Inside X Y) (S : Int) : ∀ (steps L : Nat) (buf : Buf),
    buf.size = S → Holds b buf (b.fmin L) (b.fmax L) (b.bmin L) (b.bmax L) (FS (lineAt X) (lineAt Y) b L) (BS (lineAt X) (lineAt Y) b L) →
    (∀ L' < L, ∀ k, ¬ oddHit (lineAt X) (lineAt Y) b L' k ∧ ¬ evenHit (lineAt X) (lineAt Y) b L' k) →
    (∃ Lh k, L ≤ Lh ∧ Lh < L + steps ∧ (oddHit (lineAt X) (lineAt Y) b Lh k ∨ evenHit (lineAt X) (lineAt Y) b Lh k)) →
    ∃ L1 p buf', L ≤ L1 ∧ L1 < L + steps ∧ Met X Y b L1 p ∧ buf'.size = S ∧
      findLoop X Y b steps L (b.fmin L) (b.fmax L) (b.bmin L) (b.bmax L) buf = .ok (p, buf') := by
  intro steps
  induction steps with
  | zero => rintro L buf - - - ⟨Lh, k, h1, h2, -⟩; omega
  | succ steps ih =>
    intro L buf hS hH hno hex
    have hsz := hH.size
    rw [findLoop]
    -- the sentinels of the forward search
    have c1 : decide (b.fmin L ≥ b.dmin) = true := by simp only [decide_eq_true_eq]; clear hno hex; posns
    have c2 : decide (b.fmax L ≤ b.dmax) = true := by simp only [decide_eq_true_eq]; clear hno hex; posns
    rw [Buf.setIf, if_pos c1, Buf.set_ok _ _ _ (by clear hno hex; posns) (by clear hno hex; posns)]
    simp only [bind, Except.bind]
    rw [Buf.setIf, if_pos c2, Buf.set_ok _ _ _ (by clear hno hex; posns) (by simp only; clear hno hex; posns)]
    simp only
    generalize hbuf : (Buf.mk buf.size (fun q => if q = b.fpos (b.fmax L + 1) then some (b.xb - 1) else
        if q = b.fpos (b.fmin L - 1) then some (b.xb - 1) else buf.cell q)) = buf1
    have hS1 : buf1.size = S := by rw [← hbuf]; exact hS
    have hH1 : Holds b buf1 (b.fmin L - 1) (b.fmax L + 1) (b.bmin L) (b.bmax L)
        (fun j => if b.fmax L < j then FS (lineAt X) (lineAt Y) b (L + 1) j else FG (lineAt X) (lineAt Y) b L j) (BS (lineAt X) (lineAt Y) b L) := by
      refine ⟨by rw [hS1, ← hS]; exact hsz, fun j j1 j2 => ?_, fun j j1 j2 => ?_⟩
      · rw [← hbuf]
        simp only
        by_cases hj : j = b.fmax L + 1
        · subst hj
          rw [if_pos rfl, if_pos (by omega), (FS_sentinel (lineAt X) (lineAt Y) b hN hM L).2]
        · rw [if_neg (by clear hno hex; posns), if_neg (show ¬ b.fmax L < j by omega)]
          by_cases hj' : j = b.fmin L - 1
          · subst hj'
            rw [if_pos rfl, FG_at (lineAt X) (lineAt Y) b L _ (Or.inl rfl)]
          · rw [if_neg (by clear hno hex; posns), FG_off (lineAt X) (lineAt Y) b L j (by omega) (by omega)]
            exact hH.f j (by omega) (by omega)
      · rw [← hbuf]
        simp only
        rw [if_neg (by clear hno hex; posns), if_neg (by clear hno hex; posns)]
        exact hH.b j j1 j2
    rcases forwardSweep_ok X Y b hN hM hI L S _ (b.fmax L) buf1 (Nat.le_refl _) (by omega) (by clear hno hex; posns) (by omega) hS1 hH1 with
      ⟨j, buf2, j1, j2, j3, j4⟩ | ⟨j1, buf2, j2, j3, j4⟩
    · rw [j4]
      simp only
      exact ⟨L, _, buf2, by omega, by omega, ⟨hno, Or.inl ⟨j, j2, rfl, rfl, rfl⟩⟩, j3, rfl⟩
    · rw [j3]
      simp only
      have noOdd : ∀ k, ¬ oddHit (lineAt X) (lineAt Y) b L k := fun k => by
        by_cases hk : k ≤ b.fmax L
        · exact j1 k hk
        · intro h; exact hk h.2.1.2.1
      have e1 : (if b.fmin L > b.dmin then b.fmin L - 1 else b.fmin L) = b.fmin (L + 1 : Nat) := by clear hno hex; posns
      have e2 : (if b.fmax L < b.dmax then b.fmax L + 1 else b.fmax L) = b.fmax (L + 1 : Nat) := by clear hno hex; posns
      rw [e1, e2]
      have c3 : decide (b.bmin L ≥ b.dmin) = true := by simp only [decide_eq_true_eq]; clear hno hex; posns
      have c4 : decide (b.bmax L ≤ b.dmax) = true := by simp only [decide_eq_true_eq]; clear hno hex; posns
      have hsz2 := j4.size
      rw [Buf.setIf, if_pos c3, Buf.set_ok _ _ _ (by clear hno hex; posns) (by clear hno hex; posns)]
      simp only
      rw [Buf.setIf, if_pos c4, Buf.set_ok _ _ _ (by clear hno hex; posns) (by simp only; clear hno hex; posns)]
      simp only
      generalize hbuf3 : (Buf.mk buf2.size (fun q => if q = b.bpos (b.bmax L + 1) then some (b.xe + 1) else
          if q = b.bpos (b.bmin L - 1) then some (b.xe + 1) else buf2.cell q)) = buf3
      have hS3 : buf3.size = S := by rw [← hbuf3]; exact j2
      have hH3 : Holds b buf3 (b.fmin (L + 1 : Nat)) (b.fmax (L + 1 : Nat)) (b.bmin L - 1) (b.bmax L + 1)
          (FS (lineAt X) (lineAt Y) b (L + 1)) (fun j => if b.bmax L < j then BS (lineAt X) (lineAt Y) b (L + 1) j else BG (lineAt X) (lineAt Y) b L j) := by
        refine ⟨by rw [hS3, ← j2]; exact hsz2, fun j q1 q2 => ?_, fun j q1 q2 => ?_⟩
        · rw [← hbuf3]
          simp only
          rw [if_neg (by clear hno hex; posns), if_neg (by clear hno hex; posns)]
          exact j4.f j (by clear hno hex; posns) (by clear hno hex; posns)
        · rw [← hbuf3]
          simp only
          by_cases hj : j = b.bmax L + 1
          · subst hj
            rw [if_pos rfl, if_pos (by omega), (BS_sentinel (lineAt X) (lineAt Y) b hN hM L).2]
          · rw [if_neg (by clear hno hex; posns), if_neg (show ¬ b.bmax L < j by omega)]
            by_cases hj' : j = b.bmin L - 1
            · subst hj'
              rw [if_pos rfl, BG_at (lineAt X) (lineAt Y) b L _ (Or.inl rfl)]
            · rw [if_neg (by clear hno hex; posns), BG_off (lineAt X) (lineAt Y) b L j (by omega) (by omega)]
              exact j4.b j (by omega) (by omega)
      have hc : 3 ≤ (b.xe - b.xb) + (b.ye - b.yb) ∨ L ≤ 1 := by
        by_cases h3 : 3 ≤ (b.xe - b.xb) + (b.ye - b.yb)
        · exact Or.inl h3
        · right
          by_cases hL : L ≤ 1
          · exact hL
          · exact absurd (hit_tiny (lineAt X) (lineAt Y) b hN hM h3) (hno 1 (by omega) b.dmax).2
      rcases backwardSweep_ok X Y b hN hM hI L hc S _ (b.bmax L) buf3 (Nat.le_refl _) (by omega) (by clear hno hex; posns) (by omega) hS3 hH3 with
        ⟨j, buf4, q1, q2, q3, q4, q5⟩ | ⟨q1, buf4, q2, q3, q4⟩
      · rw [q5]
        simp only
        refine ⟨L, _, buf4, by omega, by omega, ⟨hno, Or.inr ⟨j, q2, fun i hi => ?_, rfl, rfl, rfl⟩⟩, q4, rfl⟩
        by_cases hk : i ≤ b.bmax L
        · exact q3 i hi hk
        · intro h; exact hk h.2.1.2.1
      · rw [q3]
        simp only
        have noEven : ∀ k, ¬ evenHit (lineAt X) (lineAt Y) b L k := fun k => by
          by_cases hk : k ≤ b.bmax L
          · exact q1 k hk
          · intro h; exact hk h.2.1.2.1
        have e3 : (if b.fmin (L + 1 : Nat) < b.dmin then b.fmin (L + 1 : Nat) + 2 else b.fmin (L + 1 : Nat)) = b.fmin (L + 1 : Nat) := by
          clear hno hex noOdd noEven; posns
        have e4 : (if b.fmax (L + 1 : Nat) > b.dmax then b.fmax (L + 1 : Nat) - 2 else b.fmax (L + 1 : Nat)) = b.fmax (L + 1 : Nat) := by
          clear hno hex noOdd noEven; posns
        have e5 : (if b.bmin L > b.dmin then b.bmin L - 1 else b.bmin L + 1) = b.bmin (L + 1 : Nat) := by clear hno hex noOdd noEven; posns
        have e6 : (if b.bmax L < b.dmax then b.bmax L + 1 else b.bmax L - 1) = b.bmax (L + 1 : Nat) := by clear hno hex noOdd noEven; posns
        rw [e3, e4, e5, e6]
        have hno' : ∀ L' < L + 1, ∀ k, ¬ oddHit (lineAt X) (lineAt Y) b L' k ∧ ¬ evenHit (lineAt X) (lineAt Y) b L' k := by
          intro L' hL' k
          by_cases h : L' < L
          · exact hno L' h k
          · have : L' = L := by omega
            subst this
            exact ⟨noOdd k, noEven k⟩
        obtain ⟨Lh, k, h1, h2, h3⟩ := hex
        have hne : Lh ≠ L := by
          rintro rfl
          rcases h3 with h3 | h3
          · exact noOdd k h3
          · exact noEven k h3
        obtain ⟨L1, p, buf', r1, r2, r3, r4, r5⟩ := ih (L + 1) buf4 q2
          ⟨q4.size, q4.f, fun j z1 z2 => q4.b j (by clear hno hno' noOdd noEven; posns) (by clear hno hno' noOdd noEven; posns)⟩ hno' ⟨Lh, k, by omega, by omega, h3⟩
        refine ⟨L1, p, buf', by omega, by omega, r3, r4, ?_⟩
        rw [← r5]
        rfl

/-- `FindEditMidPoint` on a box with at least one line in each text that neither begins nor ends with equal lines: it finds the first meeting
point, within the box, apart from the two corners, with a length above one. -/
theorem findEditMidPoint_ok (X Y : List Nat) (b : Box) (hN : b.xb < b.xe) (hM : b.yb < b.ye) (hI : b.Inside X Y) (buf : Buf)
    (hsize : 2 * ((b.xe - b.xb) + (b.ye - b.yb)) + 6 ≤ buf.size) (steps : Nat)
    (hsteps : 3 * ((b.xe - b.xb) + (b.ye - b.yb)) + 4 ≤ steps) (hlen : 6 * ((b.xe - b.xb) + (b.ye - b.yb)) + 8 < 4294967296)
    (hs : lineAt X b.xb ≠ lineAt Y b.yb) (he : lineAt X (b.xe - 1) ≠ lineAt Y (b.ye - 1)) :
    ∃ p buf', findEditMidPoint X Y b steps buf = .ok (p, buf') ∧ buf'.size = buf.size ∧ 2 ≤ p.length ∧
      b.xb ≤ p.xmid ∧ p.xmid ≤ b.xe ∧ b.yb ≤ p.ymid ∧ p.ymid ≤ b.ye ∧
      ¬ (p.xmid = b.xb ∧ p.ymid = b.yb) ∧ ¬ (p.xmid = b.xe ∧ p.ymid = b.ye) ∧
      (¬ (p.xmid < b.xe ∧ p.ymid < b.ye ∧ (lineAt X) p.xmid = (lineAt Y) p.ymid) ∨
       ¬ (b.xb < p.xmid ∧ b.yb < p.ymid ∧ lineAt X (p.xmid - 1) = lineAt Y (p.ymid - 1))) := by
  obtain ⟨Lh, hLh, k, hk⟩ := hit_exists (lineAt X) (lineAt Y) b hN hM
  rw [findEditMidPoint, Buf.set_ok _ _ _ (by posns) (by posns)]
  simp only [bind, Except.bind]
  rw [Buf.set_ok _ _ _ (by posns) (by simp only; posns)]
  simp only
  generalize hbuf : (Buf.mk buf.size (fun q => if q = b.bpos b.bmid then some b.xe else
      if q = b.fpos b.fmid then some b.xb else buf.cell q)) = buf1
  have hS1 : buf1.size = buf.size := by rw [← hbuf]
  have hH : Holds b buf1 (b.fmin (0 : Nat)) (b.fmax (0 : Nat)) (b.bmin (0 : Nat)) (b.bmax (0 : Nat)) (FS (lineAt X) (lineAt Y) b 0) (BS (lineAt X) (lineAt Y) b 0) := by
    refine ⟨by rw [hS1]; posns, fun j j1 j2 => ?_, fun j j1 j2 => ?_⟩
    · have : j = b.fmid := by posns
      subst this
      rw [← hbuf]
      simp only
      rw [if_neg (by posns), if_pos trivial]
      rfl
    · have : j = b.bmid := by posns
      subst this
      rw [← hbuf]
      simp only
      rw [if_pos trivial]
      rfl
  obtain ⟨L, p, buf', h1, h2, h3, h4, h5⟩ := findLoop_ok X Y b hN hM hI buf.size steps 0 buf1 hS1 hH (fun L' h => by omega) ⟨Lh, k, by omega, by omega, hk⟩
  have z1 : b.fmin (0 : Nat) = b.fmid := by posns
  have z2 : b.fmax (0 : Nat) = b.fmid := by posns
  have z3 : b.bmin (0 : Nat) = b.bmid := by posns
  have z4 : b.bmax (0 : Nat) = b.bmid := by posns
  rw [z1, z2, z3, z4] at h5
  obtain ⟨hno, hm⟩ := h3
  have hL : (L : Int) ≤ 3 * ((b.xe - b.xb) + (b.ye - b.yb)) + 3 := by
    by_cases hc : Lh < L
    · rcases hk with hk | hk
      · exact absurd hk (hno Lh hc k).1
      · exact absurd hk (hno Lh hc k).2
    · omega
  refine ⟨p, buf', h5, h4, ?_⟩
  rcases hm with ⟨j, m1, m2, m3, m4⟩ | ⟨j, m1, m2, m3, m4, m5⟩
  · have hno' := fun L' hL' k => (hno L' hL' k).1
    have a := mid_odd_box (lineAt X) (lineAt Y) b hN hM hs L j m1 hno'
    have c := mid_odd_corner (lineAt X) (lineAt Y) b hN hM hs he L j m1 hno'
    have d := mid_odd_min (lineAt X) (lineAt Y) b hN hM hs he L j m1 hno'
    have e := (FS_step (lineAt X) (lineAt Y) b L j m1.2.1).2.2.2
    rw [m3, m2, m4, toUnsigned]
    exact ⟨by omega, a.2.1, a.2.2.1, a.2.2.2.1, a.2.2.2.2, c.1, c.2, Or.inl e⟩
  · have hno' := fun L' hL' k => (hno L' hL' k).2
    have a := mid_even_box (lineAt X) (lineAt Y) b hN hM hs he L j m1 hno' m2
    have c := mid_even_corner (lineAt X) (lineAt Y) b hN hM hs he L j m1 hno'
    have d := mid_even_min (lineAt X) (lineAt Y) b hN hM hs he L j m1
    have e := (BS_step (lineAt X) (lineAt Y) b L j m1.2.1).2.2.2
    rw [m3, m4, m5, toUnsigned]
    refine ⟨by omega, a.1, a.2.1, a.2.2.1, a.2.2.2, c.1, c.2, Or.inr ?_⟩
    rw [show BS (lineAt X) (lineAt Y) b (L + 1) j - j - 1 = BS (lineAt X) (lineAt Y) b (L + 1) j - 1 - j by omega]
    exact e

end Verif.Diff
