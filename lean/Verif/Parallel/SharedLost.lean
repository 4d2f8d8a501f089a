import Verif.Parallel.SharedRead

/-!
# Property C124, negative: runs that record to the same file at the same time destroy each other's recordings
-/

namespace Verif.Parallel
open Spec Verif.Regression Verif.Regression.Spec Verif.Measurement Verif.Xml Verif.Xml.Spec

/-- Steps move no stream that is at its beginning. -/
theorem turn_pos {ι : Type} [DecidableEq ι] (f : Str) (i : ι) (z : Shared ι) (h : ∀ i, (z.stream i).pos = 0) : ∀ i', ((turn f (.step i) z).stream i').pos = 0 := by
  intro i'
  simp only [turn]
  split_ifs
  · by_cases hi : i' = i
    · subst hi; simp [h]
    · simp [Function.update_of_ne hi, h]
  · by_cases hi : i' = i
    · subst hi; simp
    · simp [Function.update_of_ne hi, h]
  · exact h i'

/-- Two runs make so many steps each, in this order, and nothing reaches the file. -/
theorem steps_all {ι : Type} [DecidableEq ι] {f : Str} {g0 : Files} {xs : ι → Start} (h0 : CanBeOutput g0 f) (hf : f ≠ []) (hx : ∀ i, Records g0 f (xs i)) (i : ι) : ∀ (m : Nat) (n : ι → Nat) (z : Shared ι),
    Inv f g0 xs n z → (∀ i, (z.stream i).pos = 0) →
    Inv f g0 xs (Function.update n i (n i + m)) (turns f (List.replicate m (.step i)) z) ∧ ∀ i', ((turns f (List.replicate m (.step i)) z).stream i').pos = 0 := by
  intro m
  induction m with
  | zero => intro n z h hp; simpa [turns] using ⟨h, hp⟩
  | succ m ih =>
    intro n z h hp
    obtain ⟨h1, h2⟩ := ih _ _ (inv_step h0 hf hx h i) (turn_pos f i z hp)
    rw [Function.update_self, Function.update_idem, show n i + 1 + m = n i + (m + 1) by omega] at h1
    exact ⟨h1, h2⟩

theorem turns_append {ι : Type} [DecidableEq ι] (f : Str) : ∀ (a b : List (Turn ι)) (z : Shared ι), turns f (a ++ b) z = turns f b (turns f a z) := by
  intro a
  induction a with
  | nil => intro b z; rfl
  | cons t a ih => intro b z; exact ih b _

/-- The schedule of `C124_overwritten`: both open the file, then each runs to its end, then the buffers are written. -/
def collision (m n : Nat) : List (Turn Bool) :=
  List.replicate 2 (.step true) ++ List.replicate 2 (.step false) ++ List.replicate m (.step true) ++ List.replicate m (.step false) ++ [.flush true n, .flush false n]

/-- **C124, negative.** Two runs record to the same file at the same time: there is a schedule (both open the file before either writes) after which both have returned what they return alone, and
the file holds the document of the second run, followed by what the document of the first has beyond that length.  If the first is longer, this is neither document. -/
theorem C124_overwritten (f : Str) (hf : f ≠ []) (g : Files) (h0 : CanBeOutput g f) (xs : Bool → Start) (hx : ∀ i, Records g f (xs i)) :
    ∃ sched z, turns f sched (begin g xs) = z ∧ (∀ i, (z.procs i).stage = .ended (result g (xs i))) ∧ (∀ i, (z.stream i).pending = []) ∧
      z.files.bytes (cstr f) = document g f (xs false) ++ (document g f (xs true)).drop (document g f (xs false)).length := by
  obtain ⟨m1, hm1⟩ := C116_alone (xs true) g
  obtain ⟨m2, hm2⟩ := C116_alone (xs false) g
  obtain ⟨m, hm⟩ : ∃ m, m = m1 + m2 := ⟨_, rfl⟩
  obtain ⟨l, hl⟩ : ∃ l, l = (document g f (xs true)).length + (document g f (xs false)).length := ⟨_, rfl⟩
  refine ⟨collision m l, _, rfl, ?_⟩
  obtain ⟨a1, b1⟩ := steps_all h0 hf hx true 2 _ _ (inv_begin (xs := xs) h0) (fun _ => rfl)
  obtain ⟨a2, b2⟩ := steps_all h0 hf hx false 2 _ _ a1 b1
  obtain ⟨a3, b3⟩ := steps_all h0 hf hx true m _ _ a2 b2
  obtain ⟨a4, b4⟩ := steps_all h0 hf hx false m _ _ a3 b3
  simp only [← turns_append] at a4 b4
  rw [collision, turns_append f _ [.flush true l, .flush false l]]
  generalize hz : turns f (List.replicate 2 (.step true) ++ List.replicate 2 (.step false) ++ List.replicate m (.step true) ++ List.replicate m (.step false)) (begin g xs) = z at a4 b4 ⊢
  generalize hn : Function.update _ false _ = n at a4
  have n1 : n true = 2 + m := by rw [← hn]; simp
  have n2 : n false = 2 + m := by rw [← hn]; simp
  have hall : ∀ i, (z.procs i).stage = .ended (result g (xs i)) ∧ (z.stream i).pending = document g f (xs i) := by
    intro i
    have hi : n i = 2 + m := by cases i <;> assumption
    have hk : (alone (n i) (g, (xs i).process)).1 = filesOf (main (xs i).env (xs i).test (xs i).fuel (xs i).argv ((xs i).state g)).1 ∧
        (alone (n i) (g, (xs i).process)).2.stage = .ended (result g (xs i)) := by
      cases i
      · exact ⟨(hm2 (n false) (by omega)).1, (hm2 (n false) (by omega)).2.1⟩
      · exact ⟨(hm1 (n true) (by omega)).1, (hm1 (n true) (by omega)).2.1⟩
    refine ⟨by rw [← a4.proc i]; exact hk.2, ?_⟩
    rw [a4.pending i, b4 i, List.drop_zero, writes, if_pos (by omega), hk.1]
    rfl
  have hempty : z.files.bytes (cstr f) = [] := by
    rcases a4.cover with hc | ⟨j, -, hc⟩
    · exact absurd (hc true) (by omega)
    · by_contra hne
      obtain ⟨i, hi⟩ := hc.reach 0 (List.length_pos_iff.mpr hne)
      simp only [b4 i] at hi
      omega
  obtain ⟨A, hA⟩ : ∃ A, A = document g f (xs true) := ⟨_, rfl⟩
  obtain ⟨B, hB⟩ : ∃ B, B = document g f (xs false) := ⟨_, rfl⟩
  have p1 : (z.stream true).pending = A := by rw [(hall true).2, hA]
  have p2 : (z.stream false).pending = B := by rw [(hall false).2, hB]
  rw [← hA, ← hB] at hl ⊢
  simp only [turns, turn]
  refine ⟨fun i => (hall i).1, fun i => ?_, ?_⟩
  · cases i
    · simp [p2, hl]
    · simp [p1, hl]
  · simp only [Files.with, if_true, b4, p1, p2, Function.update_of_ne (show false ≠ true by decide), List.take_of_length_le (show A.length ≤ l by omega), List.take_of_length_le (show B.length ≤ l by omega), hempty]
    have e1 : putAt [] 0 A = A := by
      rw [putAt]
      split_ifs with h
      · exact h.symm
      · simp
    rw [e1, putAt]
    split_ifs with h
    · simp [h]
    · simp

end Verif.Parallel
