import Verif.Diff.Props

/-!
# C16: where the script is the shortest

The edits never cost more than replacing one block of lines by another, for any way to write the texts as a common beginning, two blocks and a common
end.  If the two blocks share no line (one of them may be empty: a block was only inserted or only deleted) no script costs less.
-/

set_option linter.unusedVariables false

namespace Verif.Diff
open Spec

/-- **C16.** The edits cost at most as much as replacing one block of lines by another. -/
theorem C16_block (out : Outside) (steps : Nat) (s0 s1 : Str) (hf : Fits s0 s1) (d : Built) (l : List Edit)
    (h : diffEdits out steps s0 s1 = .ok (d, l)) (p a b q : List Str) (h0 : split s0 = p ++ a ++ q) (h1 : split s1 = p ++ b ++ q) :
    cost l ≤ a.length + b.length := by
  obtain ⟨-, -, -, xb, yb, xe, ye, k1, k2, k3, k4, k5, k6, k7⟩ := diffEdits_result out steps s0 s1 hf d l h
  obtain ⟨a1, -⟩ := prefix_is _ _ p (a ++ q) (b ++ q) (by rw [h0, List.append_assoc]) (by rw [h1, List.append_assoc]) xb yb k1 k3
  have hc := Script.cost l xb yb k7
  obtain ⟨g1, g2, -⟩ := k1
  obtain ⟨g3, g4, -⟩ := k2
  have n0 : (split s0).length = p.length + a.length + q.length := by rw [h0]; simp only [List.length_append]
  have n1 : (split s1).length = p.length + b.length + q.length := by rw [h1]; simp only [List.length_append]
  by_cases hx : xb < xe ∧ yb < ye
  · have : xe ≤ p.length + a.length := by
      by_cases w : xe ≤ p.length + a.length
      · exact w
      · exfalso
        apply k4
        refine ⟨hx.1, hx.2, ?_⟩
        rw [h0, h1, at_append _ q _ (by simp only [List.length_append]; omega), at_append _ q _ (by simp only [List.length_append]; omega)]
        congr 1
        simp only [List.length_append]; omega
    omega
  · omega

/-! ## No script costs less -/

theorem sublist_strip_left (p : List Str) : ∀ (a b k : List Str), k.Sublist (p ++ a) → k.Sublist (p ++ b) →
    ∃ k' : List Str, k'.Sublist a ∧ k'.Sublist b ∧ k.length ≤ p.length + k'.length := by
  induction p with
  | nil => intro a b k h1 h2; exact ⟨k, h1, h2, by simp⟩
  | cons x p ih =>
    intro a b k h1 h2
    obtain ⟨k', e1, e2, e3⟩ := ih a b k.tail h1.tail h2.tail
    refine ⟨k', e1, e2, ?_⟩
    simp only [List.length_tail, List.length_cons] at e3 ⊢
    omega

theorem sublist_strip (p q a b k : List Str) (h1 : k.Sublist (p ++ a ++ q)) (h2 : k.Sublist (p ++ b ++ q)) :
    ∃ k' : List Str, k'.Sublist a ∧ k'.Sublist b ∧ k.length ≤ p.length + q.length + k'.length := by
  rw [List.append_assoc] at h1 h2
  obtain ⟨k1, e1, e2, e3⟩ := sublist_strip_left p _ _ k h1 h2
  have e1' := e1.reverse
  have e2' := e2.reverse
  rw [List.reverse_append] at e1' e2'
  obtain ⟨k2, f1, f2, f3⟩ := sublist_strip_left _ _ _ _ e1' e2'
  refine ⟨k2.reverse, ?_, ?_, ?_⟩
  · have := f1.reverse; rwa [List.reverse_reverse] at this
  · have := f2.reverse; rwa [List.reverse_reverse] at this
  · simp only [List.length_reverse] at f3 ⊢
    omega

/-- A script keeps a list of lines of both texts, and its cost is the number of the others. -/
theorem patchFrom_keeps (A B : List Str) : ∀ (es : List Edit) (x : Nat), InRange A B es → Ordered es → x ≤ A.length → (∀ e ∈ es, (x : Int) ≤ e.line0) →
    ∃ K : List Str, K.Sublist (A.drop x) ∧ K.Sublist (patchFrom A B x es) ∧
      ((A.length - x : Nat) : Int) + ((patchFrom A B x es).length : Int) = 2 * K.length + cost es := by
  intro es
  induction es with
  | nil =>
    intro x _ _ hx _
    refine ⟨A.drop x, List.Sublist.refl _, List.Sublist.refl _, ?_⟩
    simp only [patchFrom, cost, List.map_nil, List.sum_nil, List.length_drop]
    omega
  | cons e es ih =>
    intro x hr ho hx hlo
    obtain ⟨r1, r2, r3, r4, r5, r6, -⟩ := hr e (by simp)
    have ho' := List.pairwise_cons.mp ho
    have hx0 := hlo e (by simp)
    obtain ⟨K, k1, k2, k3⟩ := ih (e.line0 + e.deleted).toNat (fun f hf => hr f (List.mem_cons_of_mem _ hf)) ho'.2 (by omega)
      (fun f hf => by have := ho'.1 f hf; omega)
    refine ⟨(A.take e.line0.toNat).drop x ++ K, ?_, ?_, ?_⟩
    · have : A.drop x = (A.take e.line0.toNat).drop x ++ A.drop e.line0.toNat := by
        conv_lhs => rw [← List.take_append_drop e.line0.toNat A, List.drop_append_of_le_length (by rw [List.length_take]; omega)]
      rw [this]
      refine List.Sublist.append (List.Sublist.refl _) (k1.trans ?_)
      rw [show (e.line0 + e.deleted).toNat = e.line0.toNat + e.deleted.toNat by omega, ← List.drop_drop]
      exact List.drop_sublist _ _
    · rw [patchFrom]
      exact List.Sublist.append (List.sublist_append_left _ _) k2
    · rw [patchFrom]
      have c : cost (e :: es) = e.deleted + e.inserted + cost es := by simp [cost]
      rw [c]
      simp only [List.length_append, List.length_drop, List.length_take] at k3 ⊢
      omega

/-- Two lists have no line in common. -/
def Apart (a b : List Str) : Prop := ∀ x ∈ a, x ∉ b

/-- **C16.** No script costs less than replacing a block of lines by another one that shares no line with it. -/
theorem C16_lower (A B : List Str) (es : List Edit) (h : Leads A B es) (p a b q : List Str) (h0 : A = p ++ a ++ q) (h1 : B = p ++ b ++ q)
    (hab : Apart a b) : (a.length : Int) + b.length ≤ cost es := by
  obtain ⟨l1, l2, l3⟩ := h
  obtain ⟨K, k1, k2, k3⟩ := patchFrom_keeps A B es 0 l1 l2 (by omega) (fun e he => (l1 e he).1)
  rw [patch] at l3
  rw [l3] at k2 k3
  rw [List.drop_zero] at k1
  rw [h0] at k1
  rw [h1] at k2
  obtain ⟨k', e1, e2, e3⟩ := sublist_strip p q a b K k1 k2
  have : k' = [] := by
    cases k' with
    | nil => rfl
    | cons x r => exact absurd (e2.subset (List.mem_cons_self ..)) (hab x (e1.subset (List.mem_cons_self ..)))
  subst this
  have n0 : A.length = p.length + a.length + q.length := by rw [h0]; simp only [List.length_append]
  have n1 : B.length = p.length + b.length + q.length := by rw [h1]; simp only [List.length_append]
  simp only [List.length_nil] at e3
  omega

/-- **C16.** If the texts differ in one block of lines and the old and the new block share no line — in particular if lines were only inserted at one
place, or only deleted at one place — then the script is the shortest there is. -/
theorem C16_minimal (out : Outside) (steps : Nat) (s0 s1 : Str) (hf : Fits s0 s1) (d : Built) (l : List Edit)
    (h : diffEdits out steps s0 s1 = .ok (d, l)) (p a b q : List Str) (h0 : split s0 = p ++ a ++ q) (h1 : split s1 = p ++ b ++ q) (hab : Apart a b) :
    cost l = a.length + b.length ∧ ∀ l', Leads (split s0) (split s1) l' → cost l ≤ cost l' := by
  have up := C16_block out steps s0 s1 hf d l h p a b q h0 h1
  have o := C14_ordered out steps s0 s1 hf d l h
  have lo := C16_lower _ _ l ⟨o.1, o.2.1, (C12_patch out steps s0 s1 hf d l h).1⟩ p a b q h0 h1 hab
  refine ⟨by omega, fun l' hl' => ?_⟩
  have := C16_lower _ _ l' hl' p a b q h0 h1 hab
  omega

/-- **C16.** If lines were only inserted at one place, one edit says so; if lines were only deleted at one place, one edit says so. -/
theorem C16_one_edit (out : Outside) (steps : Nat) (s0 s1 : Str) (hf : Fits s0 s1) (d : Built) (l : List Edit)
    (h : diffEdits out steps s0 s1 = .ok (d, l)) (p c q : List Str) (hc : c ≠ []) :
    (split s0 = p ++ q → split s1 = p ++ c ++ q → ∃ e, l = [e] ∧ e.deleted = 0 ∧ e.inserted = c.length ∧ e.line0 = e.line1 ∧
      (p.length : Int) ≤ e.line0) ∧
    (split s0 = p ++ c ++ q → split s1 = p ++ q → ∃ e, l = [e] ∧ e.deleted = c.length ∧ e.inserted = 0 ∧ e.line0 = e.line1 ∧
      (p.length : Int) ≤ e.line0) := by
  have hn : 0 < c.length := List.length_pos_iff.mpr hc
  have o := C14_ordered out steps s0 s1 hf d l h
  obtain ⟨-, -, -, xb, yb, xe, ye, k1, k2, k3, k4, k5, k6, k7⟩ := diffEdits_result out steps s0 s1 hf d l h
  -- one of the sides of the box is empty
  have side : ∀ a b : List Str, split s0 = p ++ a ++ q → split s1 = p ++ b ++ q → (a = [] ∨ b = []) → (p.length : Int) ≤ xb ∧ (xb = xe ∨ yb = ye) := by
    intro a b h0 h1 hab
    obtain ⟨a1, -⟩ := prefix_is _ _ p (a ++ q) (b ++ q) (by rw [h0, List.append_assoc]) (by rw [h1, List.append_assoc]) xb yb k1 k3
    obtain ⟨g1, g2, -⟩ := k1
    obtain ⟨g3, g4, -⟩ := k2
    have n0 : (split s0).length = p.length + a.length + q.length := by rw [h0]; simp only [List.length_append]
    have n1 : (split s1).length = p.length + b.length + q.length := by rw [h1]; simp only [List.length_append]
    refine ⟨by omega, ?_⟩
    refine Classical.byContradiction (fun hno => ?_)
    have hx : xb < xe ∧ yb < ye := by omega
    have : xe ≤ p.length + a.length := by
      by_cases w : xe ≤ p.length + a.length
      · exact w
      · exfalso
        apply k4
        refine ⟨hx.1, hx.2, ?_⟩
        rw [h0, h1, at_append _ q _ (by simp only [List.length_append]; omega), at_append _ q _ (by simp only [List.length_append]; omega)]
        congr 1
        simp only [List.length_append]; omega
    rcases hab with hab | hab
    · subst hab; simp only [List.length_nil] at *; omega
    · subst hab; simp only [List.length_nil] at *; omega
  have g := k1
  obtain ⟨g1, g2, -⟩ := g
  have g' := k2
  obtain ⟨g3, g4, -⟩ := g'
  have hr := (Script.inRange l xb yb xe ye (by omega) (by omega) (by omega) (by omega) k7).2
  -- hence one edit at most
  have one : (xb = xe ∨ yb = ye) → cost l ≠ 0 → ∃ e, l = [e] := by
    intro hs hcost
    match l, hr, o.2.1, o.1, hcost with
    | [], _, _, _, hcost => exact absurd rfl hcost
    | [e], _, _, _, _ => exact ⟨e, rfl⟩
    | e :: f :: r, hr, ho, hin, _ =>
      exfalso
      have h4 := hin e (by simp)
      have h5 := hin f (by simp)
      have h1 := (List.pairwise_cons.mp ho).1 f (by simp)
      have h2 := hr e (by simp)
      have h3 := hr f (by simp)
      omega
  constructor
  · intro h0 h1
    have h0' : split s0 = p ++ [] ++ q := by rw [h0, List.append_nil]
    obtain ⟨s1', s2⟩ := side [] c h0' h1 (Or.inl rfl)
    obtain ⟨m1, -⟩ := C16_minimal out steps s0 s1 hf d l h p [] c q h0' h1 (by intro x hx; cases hx)
    obtain ⟨e, rfl⟩ := one s2 (by simp only [List.length_nil] at m1; omega)
    have n0 : (split s0).length = p.length + q.length := by rw [h0]; simp only [List.length_append]
    have n1 : (split s1).length = p.length + c.length + q.length := by rw [h1]; simp only [List.length_append]
    have h2 := hr e (by simp)
    have h3 := o.1 e (by simp)
    simp only [cost, List.map_cons, List.map_nil, List.sum_cons, List.sum_nil, List.length_nil] at m1
    refine ⟨e, rfl, ?_, ?_, ?_, ?_⟩ <;> omega
  · intro h0 h1
    have h1' : split s1 = p ++ [] ++ q := by rw [h1, List.append_nil]
    obtain ⟨s1', s2⟩ := side c [] h0 h1' (Or.inr rfl)
    obtain ⟨m1, -⟩ := C16_minimal out steps s0 s1 hf d l h p c [] q h0 h1' (by intro x _ hx; cases hx)
    obtain ⟨e, rfl⟩ := one s2 (by simp only [List.length_nil] at m1; omega)
    have n0 : (split s0).length = p.length + c.length + q.length := by rw [h0]; simp only [List.length_append]
    have n1 : (split s1).length = p.length + q.length := by rw [h1]; simp only [List.length_append]
    have h2 := hr e (by simp)
    have h3 := o.1 e (by simp)
    simp only [cost, List.map_cons, List.map_nil, List.sum_cons, List.sum_nil, List.length_nil] at m1
    refine ⟨e, rfl, ?_, ?_, ?_, ?_⟩ <;> omega

/-- Two lines between others are replaced by one: both blocks are nonempty and share no line. -/
example : split b!"one\ntwo\nthree\nfour\n" = [b!"one"] ++ [b!"two", b!"three"] ++ [b!"four", []] ∧
    split b!"one\n23\nfour\n" = [b!"one"] ++ [b!"23"] ++ [b!"four", []] ∧ Apart [b!"two", b!"three"] [b!"23"] ∧
    Fits b!"one\ntwo\nthree\nfour\n" b!"one\n23\nfour\n" ∧
    (diffEdits none 40 b!"one\ntwo\nthree\nfour\n" b!"one\n23\nfour\n").map Prod.snd = .ok [⟨1, 1, 1, 2⟩] := by
  refine ⟨by decide +kernel, by decide +kernel, ?_, ?_, by decide +kernel⟩
  · rw [Apart]; decide +kernel
  · rw [Fits]; decide +kernel

/-- A line is inserted among equal ones: one edit, after the last of the equal lines. -/
example : split b!"a\na\nb" = [b!"a"] ++ [b!"a", b!"b"] ∧ split b!"a\na\na\nb" = [b!"a"] ++ [b!"a"] ++ [b!"a", b!"b"] ∧
    (diffEdits none 40 b!"a\na\nb" b!"a\na\na\nb").map Prod.snd = .ok [⟨2, 2, 1, 0⟩] := by
  refine ⟨by decide +kernel, by decide +kernel, by decide +kernel⟩

end Verif.Diff
