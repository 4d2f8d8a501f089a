import Verif.Diff.Scripts
import Verif.Diff.Fuel
import Verif.Diff.Clash

/-!
# Properties of `Diff`

C12 (the edits lead from one text to the other), C13 (nothing is reported exactly for equal texts), C14 (order, ranges, kept lines), C15 (it
ends, and what it reads), C16 (not the shortest script), C17 (numbers of lines), C18 (lines of a text).
-/

set_option linter.unusedVariables false
set_option linter.unusedSimpArgs false

namespace Verif.Diff
open Spec

theorem noCollision_of (s0 s1 : Str) (h : NoClash s0 s1) : NoCollision (both (split s0) (split s1)) := by
  have mem : ∀ j i, i < (both (split s0) (split s1) j).length → textAt (both (split s0) (split s1)) j i ∈ split s0 ++ split s1 := by
    intro j i hi
    have : textAt (both (split s0) (split s1)) j i ∈ both (split s0) (split s1) j := by
      rw [textAt, getD_in _ _ hi]; exact List.getElem_mem hi
    cases j
    · exact List.mem_append_left _ this
    · exact List.mem_append_right _ this
  intro j i k l h1 h2 h3
  exact h _ (mem j i h1) _ (mem k l h2) h3

/-- Without a clash of hashes the lines of the greatest hash are no problem. -/
theorem Spec.NoClash.top {s0 s1 : Str} (h : NoClash s0 s1) : TopClear s0 s1 := by
  intro x hx
  have hm : x ∈ split s0 ++ split s1 := by
    rcases hx with hx | hx
    · exact List.mem_append_left _ hx.1
    · exact List.mem_append_right _ hx.1
  obtain ⟨t, ht⟩ : ∃ t, firstWithHash (split s0 ++ split s1) (hashString x) = some t := by
    refine Option.isSome_iff_exists.mp ?_
    rw [firstWithHash, List.find?_isSome]
    exact ⟨x, hm, by simp⟩
  rw [ht]
  have h1 := List.find?_some ht
  simp only [beq_iff_eq] at h1
  rw [h t (List.mem_of_find?_eq_some ht) x hm h1]

/-- All about the edits of two texts. -/
theorem diffEdits_cases (steps : Nat) (s0 s1 : Str) (he : Enough steps s0 s1) (hf : Fits s0 s1) :
    (∃ (d : Built) (l : List Edit) (xb yb xe ye : Int), d.lines0 = split s0 ∧ d.lines1 = split s1 ∧ (∀ m, diffEdits (some m) steps s0 s1 = .ok (d, l)) ∧
      Gap (at' (split s0)) (at' (split s1)) 0 0 xb yb ∧ Gap (at' (split s0)) (at' (split s1)) xe ye (split s0).length (split s1).length ∧
      xb ≤ xe ∧ yb ≤ ye ∧ ¬ (xb < (split s0).length ∧ yb < (split s1).length ∧ at' (split s0) xb = at' (split s1) yb) ∧
      ¬ (xb < xe ∧ yb < ye ∧ at' (split s0) (xe - 1) = at' (split s1) (ye - 1)) ∧
      Script (at' (split s0)) (at' (split s1)) xe ye xb yb l ∧ Separated l ∧ (l = [] ↔ xb = xe ∧ yb = ye) ∧
      (l = [] ∨ (1 ≤ xb ∧ xe < (split s0).length) → diffEdits none steps s0 s1 = .ok (d, l)) ∧
      (l ≠ [] → ¬ (1 ≤ xb ∧ xe < (split s0).length) → IsUB (diffEdits none steps s0 s1))) ∨
    ((∀ out, diffEdits out steps s0 s1 = .error (.ub "dereferencing the end of the hash table")) ∧ ¬ TopClear s0 s1) := by
  have hsz : (split s0).length + (split s1).length = size s0 s1 := rfl
  rw [Enough] at he
  rw [Fits] at hf
  rcases buildLines_spec steps s0 s1 (by omega) with ⟨d, b1, b2, b3, b4, b5, b6, b7, b8⟩ | ⟨b1, b2⟩
  · left
    rw [b2] at b4
    rw [b3] at b5
    obtain ⟨l, xb, yb, xe, ye, e1, e2, e3, e4, e5, e6, e7, e8, e9, e10, e11, e12⟩ := editList_ok d.ids0 d.ids1 steps steps (by omega) (by omega) (by omega)
    have iff : ∀ i j : Int, 0 ≤ i → i < (split s0).length → 0 ≤ j → j < (split s1).length →
        (lineAt d.ids0 i = lineAt d.ids1 j ↔ at' (split s0) i = at' (split s1) j) := by
      intro i j h1 h2 h3 h4
      have := b6 i.toNat j.toNat (by rw [b2]; omega) (by rw [b3]; omega)
      rw [b2, b3] at this
      exact this
    have imp := fun i j h1 h2 h3 h4 => (iff i j h1 h2 h3 h4).mp
    rw [b4, b5] at e4
    rw [b4, b5] at e7
    rw [b4] at e11 e12
    have g3 := e3
    obtain ⟨g31, g32, -⟩ := g3
    have g4 := e4
    obtain ⟨g41, g42, -⟩ := g4
    refine ⟨d, l, xb, yb, xe, ye, b2, b3, fun m => ?_, ?_, ?_, e5, e6, ?_, ?_, ?_, e2, e10, fun h => ?_, fun h1 h2 => ?_⟩
    · simp only [diffEdits, b1, bind, Except.bind, Option.map_some, e1]
    · exact Gap.map imp (by omega) (by omega) (by omega) (by omega) e3
    · exact Gap.map imp (by omega) (by omega) (by omega) (by omega) e4
    · rintro ⟨q1, q2, q3⟩
      exact e7 ⟨q1, q2, (iff xb yb (by omega) (by omega) (by omega) (by omega)).mpr q3⟩
    · rintro ⟨q1, q2, q3⟩
      exact e8 ⟨q1, q2, (iff (xe - 1) (ye - 1) (by omega) (by omega) (by omega) (by omega)).mpr q3⟩
    · exact Script.map imp (by omega) (by omega) l xb yb (by omega) (by omega) e9
    · simp only [diffEdits, b1, bind, Except.bind, Option.map_none, e11 h]
    · obtain ⟨w, e⟩ := e12 h1 h2
      exact ⟨w, by simp only [diffEdits, b1, bind, Except.bind, Option.map_none, e]⟩
  · right
    refine ⟨fun out => ?_, (buildLines_end steps s0 s1 (by omega)).mp b1⟩
    simp only [diffEdits, b1, bind, Except.bind]

/-- What holds of a result, whatever is in memory around the arrays. -/
theorem diffEdits_result (out : Outside) (steps : Nat) (s0 s1 : Str) (hf : Fits s0 s1) (d : Built) (l : List Edit)
    (h : diffEdits out steps s0 s1 = .ok (d, l)) :
    d.lines0 = split s0 ∧ d.lines1 = split s1 ∧ Separated l ∧ ∃ xb yb xe ye : Int,
      Gap (at' (split s0)) (at' (split s1)) 0 0 xb yb ∧ Gap (at' (split s0)) (at' (split s1)) xe ye (split s0).length (split s1).length ∧
      ¬ (xb < (split s0).length ∧ yb < (split s1).length ∧ at' (split s0) xb = at' (split s1) yb) ∧
      ¬ (xb < xe ∧ yb < ye ∧ at' (split s0) (xe - 1) = at' (split s1) (ye - 1)) ∧
      xb ≤ xe ∧ yb ≤ ye ∧ Script (at' (split s0)) (at' (split s1)) xe ye xb yb l := by
  have h := diffEdits_more out steps (steps + (3 * size s0 s1 + 4)) s0 s1 _ h (by omega)
  rcases diffEdits_cases (steps + (3 * size s0 s1 + 4)) s0 s1 (by simp only [Enough]; omega) hf with ⟨d', l', xb, yb, xe, ye, c1, c2, c3, c4, c5, c6, c7, c8, c9, c10, c11, c12, c13, c14⟩ | ⟨c1, -⟩
  · have key : d = d' ∧ l = l' := by
      cases out with
      | some m =>
        rw [c3 m] at h
        simp only [Except.ok.injEq, Prod.mk.injEq] at h
        exact ⟨h.1.symm, h.2.symm⟩
      | none =>
        by_cases hc : l' = [] ∨ (1 ≤ xb ∧ xe < (split s0).length)
        · rw [c13 hc] at h
          simp only [Except.ok.injEq, Prod.mk.injEq] at h
          exact ⟨h.1.symm, h.2.symm⟩
        · obtain ⟨w, e⟩ := c14 (fun q => hc (Or.inl q)) (fun q => hc (Or.inr q))
          rw [e] at h
          cases h
    obtain ⟨rfl, rfl⟩ := key
    exact ⟨c1, c2, c11, xb, yb, xe, ye, c4, c5, c8, c9, c6, c7, c10⟩
  · rw [c1] at h; cases h

/-- The script over all lines. -/
theorem diffEdits_script (out : Outside) (steps : Nat) (s0 s1 : Str) (hf : Fits s0 s1) (d : Built) (l : List Edit)
    (h : diffEdits out steps s0 s1 = .ok (d, l)) : Script (at' (split s0)) (at' (split s1)) (split s0).length (split s1).length 0 0 l := by
  obtain ⟨-, -, -, xb, yb, xe, ye, h1, h2, -, -, -, -, h3⟩ := diffEdits_result out steps s0 s1 hf d l h
  exact Script.gap_left _ _ _ h1 (Script.gap_right h2 _ _ _ h3)

/-! ## C12 -/

/-- **C12.** Applying the edits to the lines of the first text gives the lines of the second, hence the second text. -/
theorem C12_patch (out : Outside) (steps : Nat) (s0 s1 : Str) (hf : Fits s0 s1) (d : Built) (l : List Edit)
    (h : diffEdits out steps s0 s1 = .ok (d, l)) : patch (split s0) (split s1) l = split s1 ∧ join (patch (split s0) (split s1) l) = s1 := by
  have := Script.patch l 0 0 (by omega) (by omega) (diffEdits_script out steps s0 s1 hf d l h)
  have e : patch (split s0) (split s1) l = split s1 := by simpa [patch] using this
  exact ⟨e, by rw [e]; exact join_split s1⟩

/-! ## C14 -/

/-- **C14.** The edits are about existing lines, in order, with lines between them, and the lines left over are the same in both texts. -/
theorem C14_ordered (out : Outside) (steps : Nat) (s0 s1 : Str) (hf : Fits s0 s1) (d : Built) (l : List Edit)
    (h : diffEdits out steps s0 s1 = .ok (d, l)) :
    InRange (split s0) (split s1) l ∧ Ordered l ∧ kept (split s0) (deletions l) = kept (split s1) (insertions l) := by
  have hs := diffEdits_script out steps s0 s1 hf d l h
  have ho := Script.ordered l _ _ hs (diffEdits_result out steps s0 s1 hf d l h).2.2.1
  refine ⟨(Script.inRange l 0 0 _ _ (by omega) (by omega) (by omega) (by omega) hs).1, ho, ?_⟩
  rw [kept_eq, kept_eq]
  exact Script.kept l 0 0 (by omega) (by omega) hs ho

/-! ## The text written -/

theorem printLines_ok (pre : Str) (lines : List Str) : ∀ (num : Nat) (lnum : Int), 0 ≤ lnum → lnum + num ≤ lines.length → ∃ t, printLines pre lines num lnum = .ok t := by
  intro num
  induction num with
  | zero => intro lnum _ _; exact ⟨[], rfl⟩
  | succ n ih =>
    intro lnum h1 h2
    obtain ⟨t, ht⟩ := ih (lnum + 1) (by omega) (by omega)
    exact ⟨_, by rw [printLines, if_pos (by omega), ht]; rfl⟩

theorem printEdit_ok (A B : List Str) (e : Edit) (h1 : 0 ≤ e.line0) (h2 : 0 ≤ e.deleted) (h3 : e.line0 + e.deleted ≤ A.length) (h4 : 0 ≤ e.line1)
    (h5 : 0 ≤ e.inserted) (h6 : e.line1 + e.inserted ≤ B.length) : ∃ t, printEdit A B e = .ok t ∧ t ≠ [] := by
  obtain ⟨a, ha⟩ := printLines_ok b!"< " A e.deleted.toNat e.line0 h1 (by omega)
  obtain ⟨c, hc⟩ := printLines_ok b!"> " B e.inserted.toNat e.line1 h4 (by omega)
  rw [printEdit, if_neg (by omega)]
  split
  · rw [ha, hc]; exact ⟨_, rfl, by simp⟩
  · split
    · rw [hc]; exact ⟨_, rfl, by simp⟩
    · rw [ha]; exact ⟨_, rfl, by simp⟩

theorem printEditList_ok (A B : List Str) : ∀ (l : List Edit), InRange A B l → ∃ t, printEditList A B l = .ok t ∧ (t = [] ↔ l = []) := by
  intro l
  induction l with
  | nil => intro _; exact ⟨[], rfl, by simp⟩
  | cons e l ih =>
    intro h
    obtain ⟨h1, h2, h3, h4, h5, h6, h7⟩ := h e (by simp)
    obtain ⟨t, ht, hne⟩ := printEdit_ok A B e h1 h2 h3 h4 h5 h6
    obtain ⟨ts, hts, -⟩ := ih (fun f hf => h f (List.mem_cons_of_mem _ hf))
    exact ⟨t ++ ts, by rw [printEditList, ht, hts]; rfl, by simp [hne]⟩

theorem diff_eq (out : Outside) (steps : Nat) (s0 s1 : Str) (hf : Fits s0 s1) (d : Built) (l : List Edit)
    (h : diffEdits out steps s0 s1 = .ok (d, l)) : ∃ t, diff out steps s0 s1 = .ok t ∧ printEditList (split s0) (split s1) l = .ok t ∧ (t = [] ↔ l = []) := by
  obtain ⟨r1, r2, -⟩ := diffEdits_result out steps s0 s1 hf d l h
  obtain ⟨t, h1, h2⟩ := printEditList_ok (split s0) (split s1) l (C14_ordered out steps s0 s1 hf d l h).1
  exact ⟨t, by simp only [diff, h, bind, Except.bind, r1, r2, h1], h1, h2⟩

theorem diff_ok (out : Outside) (steps : Nat) (s0 s1 : Str) (t : Str) (h : diff out steps s0 s1 = .ok t) : ∃ d l, diffEdits out steps s0 s1 = .ok (d, l) := by
  rw [diff] at h
  cases e : diffEdits out steps s0 s1 with
  | error f => rw [e] at h; cases h
  | ok r => exact ⟨r.1, r.2, rfl⟩

/-! ## C13 -/

theorem edits_empty (out : Outside) (steps : Nat) (s0 s1 : Str) (hf : Fits s0 s1) (d : Built) (l : List Edit)
    (h : diffEdits out steps s0 s1 = .ok (d, l)) : l = [] ↔ s0 = s1 := by
  constructor
  · rintro rfl
    have := (C12_patch out steps s0 s1 hf d [] h).2
    rw [← this]
    simp only [patch, patchFrom, List.drop_zero]
    exact (join_split s0).symm
  · rintro rfl
    -- all lines are taken off at the beginning
    obtain ⟨-, -, -, xb, yb, xe, ye, h1, h2, h3, -, h4, h5, h6⟩ := diffEdits_result out steps s0 s0 hf d l h
    obtain ⟨a1, a2, a3⟩ := h1
    obtain ⟨b1, b2, b3⟩ := h2
    have hxy : xb = yb := by omega
    have hx : (split s0).length ≤ xb := by
      by_cases q : xb < (split s0).length
      · exact absurd ⟨q, by omega, by rw [hxy]⟩ h3
      · omega
    cases l with
    | nil => rfl
    | cons e l =>
      obtain ⟨⟨k1, k2, -⟩, k4, k5, k6, k7⟩ := h6
      have := Script.bounds l _ _ k7
      omega

/-- **C13.** The edit list is empty, and nothing is written, if and only if the two texts are equal. -/
theorem C13_empty_iff_equal (out : Outside) (steps : Nat) (s0 s1 : Str) (hf : Fits s0 s1) :
    (∀ d l, diffEdits out steps s0 s1 = .ok (d, l) → (l = [] ↔ s0 = s1)) ∧ (∀ t, diff out steps s0 s1 = .ok t → (t = [] ↔ s0 = s1)) := by
  refine ⟨fun d l h => edits_empty out steps s0 s1 hf d l h, fun t h => ?_⟩
  obtain ⟨d, l, hd⟩ := diff_ok out steps s0 s1 t h
  obtain ⟨t', h1, -, h2⟩ := diff_eq out steps s0 s1 hf d l hd
  rw [h1] at h
  simp only [Except.ok.injEq] at h
  rw [← h, h2]
  exact edits_empty out steps s0 s1 hf d l hd

/-! ## C15 -/

/-- **C15.** `Diff` of two texts without a harmful clash of hashes (C17) comes to an end without a failed assertion, without a wrong access to the diagonals and
without an exception, and what it writes depends on the two texts only; this is so if the memory around the two arrays of line numbers can be
read, whatever is found there. -/
theorem C15_total (s0 s1 : Str) (hf : Fits s0 s1) (hc : TopClear s0 s1) :
    ∃ t, ∀ m steps, Enough steps s0 s1 → diff (some m) steps s0 s1 = .ok t := by
  have he : Enough (3 * size s0 s1 + 4) s0 s1 := by simp only [Enough]; omega
  rcases diffEdits_cases (3 * size s0 s1 + 4) s0 s1 he hf with ⟨d, l, xb, yb, xe, ye, c1, c2, c3, -⟩ | ⟨-, c⟩
  · obtain ⟨t, -, ht, -⟩ := diff_eq (some (fun _ => 0, fun _ => 0)) _ s0 s1 hf d l (c3 _)
    refine ⟨t, fun m steps hs => ?_⟩
    refine diff_more (some m) (3 * size s0 s1 + 4) steps s0 s1 t ?_ hs
    simp only [diff, c3 m, bind, Except.bind, c1, c2, ht]
  · exact absurd hc c

/-- **C15.** Every call ends with a text or in undefined behaviour: in no case does an assertion fail, is an exception thrown or does a loop go on for ever. -/
theorem C15_ends (out : Outside) (steps : Nat) (s0 s1 : Str) (hf : Fits s0 s1) (he : Enough steps s0 s1) :
    (∃ t, diff out steps s0 s1 = .ok t) ∨ IsUB (diff out steps s0 s1) := by
  rcases diffEdits_cases steps s0 s1 he hf with ⟨d, l, xb, yb, xe, ye, c1, c2, c3, -, -, -, -, -, -, -, -, -, c13, c14⟩ | ⟨c, -⟩
  · cases out with
    | some m =>
      obtain ⟨t, ht, -⟩ := diff_eq (some m) steps s0 s1 hf d l (c3 m)
      exact Or.inl ⟨t, ht⟩
    | none =>
      by_cases hc : l = [] ∨ (1 ≤ xb ∧ xe < (split s0).length)
      · obtain ⟨t, ht, -⟩ := diff_eq none steps s0 s1 hf d l (c13 hc)
        exact Or.inl ⟨t, ht⟩
      · obtain ⟨w, e⟩ := c14 (fun q => hc (Or.inl q)) (fun q => hc (Or.inr q))
        exact Or.inr ⟨w, by simp only [diff, e, bind, Except.bind]⟩
  · exact Or.inr ⟨"dereferencing the end of the hash table", by simp only [diff, c out, bind, Except.bind]⟩

theorem getLast_at (A : List Str) (h : A ≠ []) : A.getLast? = some (at' A (A.length - 1)) := by
  have hl : 0 < A.length := List.length_pos_iff.mpr h
  rw [List.getLast?_eq_getElem?, at', show ((A.length : Int) - 1).toNat = A.length - 1 by omega, getD_in _ _ (by omega), List.getElem?_eq_getElem]

theorem at_append (p r : List Str) (i : Int) (h : (p.length : Int) ≤ i) : at' (p ++ r) i = at' r (i - p.length) := by
  simp only [at', List.getD]
  rw [List.getElem?_append_right (by omega), show (i - (p.length : Int)).toNat = i.toNat - p.length by omega]

theorem at_append_left (p r : List Str) (i : Int) (h0 : 0 ≤ i) (h : i < p.length) : at' (p ++ r) i = at' p i := by
  simp only [at', List.getD]
  rw [List.getElem?_append_left (by omega)]

/-- The lines taken off at the beginning are the longest common beginning. -/
theorem prefix_is (A B p r0 r1 : List Str) (h0 : A = p ++ r0) (h1 : B = p ++ r1) (xb yb : Int) (hg : Gap (at' A) (at' B) 0 0 xb yb)
    (hn : ¬ (xb < A.length ∧ yb < B.length ∧ at' A xb = at' B yb)) : (p.length : Int) ≤ xb ∧ (r0.head? ≠ r1.head? → xb ≤ A.length → yb ≤ B.length → xb = p.length) := by
  obtain ⟨g1, g2, g3⟩ := hg
  subst h0 h1
  simp only [List.length_append] at *
  constructor
  · by_cases q : xb < p.length
    · exfalso
      apply hn
      refine ⟨by omega, by omega, ?_⟩
      rw [at_append_left p r0 xb (by omega) q, at_append_left p r1 yb (by omega) (by omega), show xb = yb by omega]
    · omega
  · intro hne k1 k2
    by_cases q : xb ≤ p.length
    · by_cases q' : xb < p.length
      · exfalso
        apply hn
        refine ⟨by omega, by omega, ?_⟩
        rw [at_append_left p r0 xb (by omega) q', at_append_left p r1 yb (by omega) (by omega), show xb = yb by omega]
      · omega
    · exfalso
      apply hne
      have := g3 p.length (by omega) (by omega)
      rw [at_append p r0 _ (by omega), at_append p r1 _ (by omega), show (0 : Int) + p.length - p.length = 0 by omega] at this
      cases r0 with
      | nil => simp at k1 k2; omega
      | cons a r0 =>
        cases r1 with
        | nil => simp at k1 k2; omega
        | cons b r1 =>
          have e : a = b := this
          rw [e]; rfl

/-- **C15.** The reads outside the arrays of line numbers, in a build with assertions: for two different texts, cut after their longest common
beginning `p`, the code stays inside the arrays exactly when `p` is not empty and the two rests end with the same line.  Otherwise, so in
particular for any two texts that differ in the first line, or that differ in the last line, it reads outside. -/
theorem C15_reads_outside (steps : Nat) (s0 s1 : Str) (hf : Fits s0 s1) (he : Enough steps s0 s1) (hc : TopClear s0 s1) (p r0 r1 : List Str)
    (h0 : split s0 = p ++ r0) (h1 : split s1 = p ++ r1) (hr : r0.head? ≠ r1.head?) :
    ((∃ t, diff none steps s0 s1 = .ok t) ↔ p ≠ [] ∧ r0.getLast? = r1.getLast?) ∧
    (¬ (p ≠ [] ∧ r0.getLast? = r1.getLast?) → IsUB (diff none steps s0 s1)) := by
  have hne : s0 ≠ s1 := by
    rintro rfl
    rw [h0] at h1
    rw [List.append_cancel_left h1] at hr
    exact hr rfl
  rcases diffEdits_cases steps s0 s1 he hf with ⟨d, l, xb, yb, xe, ye, c1, c2, c3, c4, c5, c6, c7, c8, c9, c10, c11, c12, c13, c14⟩ | ⟨-, c⟩
  rotate_left
  · exact absurd hc c
  have hl : l ≠ [] := fun q => hne ((edits_empty _ steps s0 s1 hf d l (c3 (fun _ => 0, fun _ => 0))).mp q)
  obtain ⟨a1, a2⟩ := prefix_is _ _ p r0 r1 h0 h1 xb yb c4 c8
  obtain ⟨g41, g42, -⟩ := c4
  obtain ⟨g51, g52, g53⟩ := c5
  have n0 : (split s0).length = p.length + r0.length := by rw [h0, List.length_append]
  have n1 : (split s1).length = p.length + r1.length := by rw [h1, List.length_append]
  have hx : xb = p.length := a2 hr (by omega) (by omega)
  have key : (1 ≤ xb ∧ xe < (split s0).length) ↔ (p ≠ [] ∧ r0.getLast? = r1.getLast?) := by
    have hp : 1 ≤ xb ↔ p ≠ [] := by
      rw [hx]
      cases p with
      | nil => simp
      | cons a p => simp; omega
    rw [hp]
    refine and_congr_right (fun _ => ?_)
    constructor
    · intro q
      -- the last line was taken off at the end
      have e := g53 ((split s0).length - 1 - xe) (by omega) (by omega)
      rw [show xe + (((split s0).length : Int) - 1 - xe) = (split s0).length - 1 by omega,
        show ye + (((split s0).length : Int) - 1 - xe) = (split s1).length - 1 by omega] at e
      have z0 : r0 ≠ [] := by rintro rfl; simp at n0; omega
      have z1 : r1 ≠ [] := by rintro rfl; simp at n1; omega
      rw [getLast_at _ z0, getLast_at _ z1]
      have l0 : 0 < r0.length := List.length_pos_iff.mpr z0
      have l1 : 0 < r1.length := List.length_pos_iff.mpr z1
      rw [n0, n1, h0, h1, at_append p r0 _ (by omega), at_append p r1 _ (by omega)] at e
      rw [show ((p.length + r0.length : Nat) : Int) - 1 - p.length = r0.length - 1 by omega,
        show ((p.length + r1.length : Nat) : Int) - 1 - p.length = r1.length - 1 by omega] at e
      rw [e]
    · intro q
      cases z0 : r0 with
      | nil =>
        rw [z0] at q hr
        cases z1 : r1 with
        | nil => rw [z1] at hr; exact absurd rfl hr
        | cons b r => rw [z1] at q; simp [List.getLast?_cons] at q
      | cons a r =>
        have y0 : r0 ≠ [] := by rw [z0]; simp
        have y1 : r1 ≠ [] := by
          rintro rfl
          rw [z0] at q; simp [List.getLast?_cons] at q
        have l0 : 0 < r0.length := List.length_pos_iff.mpr y0
        have l1 : 0 < r1.length := List.length_pos_iff.mpr y1
        rw [getLast_at _ y0, getLast_at _ y1, Option.some.injEq] at q
        by_cases w : xe < (split s0).length
        · exact w
        · exfalso
          apply c9
          refine ⟨by omega, by omega, ?_⟩
          rw [show xe - 1 = (p.length + r0.length : Nat) - 1 by omega, show ye - 1 = (p.length + r1.length : Nat) - 1 by omega]
          rw [h0, h1, at_append p r0 _ (by omega), at_append p r1 _ (by omega)]
          rw [show ((p.length + r0.length : Nat) : Int) - 1 - p.length = r0.length - 1 by omega,
            show ((p.length + r1.length : Nat) : Int) - 1 - p.length = r1.length - 1 by omega]
          exact q
  have bad : ¬ (p ≠ [] ∧ r0.getLast? = r1.getLast?) → IsUB (diff none steps s0 s1) := by
    intro q
    obtain ⟨w, e⟩ := c14 hl (fun z => q (key.mp z))
    exact ⟨w, by simp only [diff, e, bind, Except.bind]⟩
  refine ⟨⟨fun q => ?_, fun q => ?_⟩, bad⟩
  · by_cases z : p ≠ [] ∧ r0.getLast? = r1.getLast?
    · exact z
    · obtain ⟨t, ht⟩ := q
      obtain ⟨w, e⟩ := bad z
      rw [e] at ht
      cases ht
  · obtain ⟨t, ht, -⟩ := diff_eq none steps s0 s1 hf d l (c13 (Or.inr (key.mpr q)))
    exact ⟨t, ht⟩

/-- Texts of one line: `Diff` of two different ones always reads outside the arrays. -/
theorem C15_one_line (steps : Nat) (s0 s1 : Str) (h0 : (10 : UInt8) ∉ s0) (h1 : (10 : UInt8) ∉ s1) (hne : s0 ≠ s1) (he : 10 ≤ steps)
    (hh : hashString s0 ≠ hashString s1) : IsUB (diff none steps s0 s1) := by
  have e0 : split s0 = [s0] := split_join [s0] (by simp) (by simpa using h0)
  have e1 : split s1 = [s1] := split_join [s1] (by simp) (by simpa using h1)
  refine (C15_reads_outside steps s0 s1 ?_ ?_ ?_ [] [s0] [s1] (by simpa using e0) (by simpa using e1) (by simpa using hne)).2 (by simp)
  · simp [Fits, size, e0, e1]
  · simp [Enough, size, e0, e1, he]
  · refine NoClash.top (fun a ha b hb hab => ?_)
    simp only [e0, e1, List.cons_append, List.nil_append, List.mem_cons, List.not_mem_nil, or_false] at ha hb
    rcases ha with rfl | rfl <;> rcases hb with rfl | rfl
    · rfl
    · exact absurd hab hh
    · exact absurd hab.symm hh
    · rfl

/-! ## C16 -/

/-- **C16.** As far as it goes: never more lines than there are are deleted and inserted. -/
theorem C16_cost (out : Outside) (steps : Nat) (s0 s1 : Str) (hf : Fits s0 s1) (d : Built) (l : List Edit)
    (h : diffEdits out steps s0 s1 = .ok (d, l)) : cost l ≤ size s0 s1 := by
  have := Script.cost l 0 0 (diffEdits_script out steps s0 s1 hf d l h)
  rw [size]
  omega

/-- **C16.** As far as it goes: no edit touches the lines at the beginning that are the same in both texts, nor, after the longest common beginning,
the lines at the end that are the same. -/
theorem C16_common_lines (out : Outside) (steps : Nat) (s0 s1 : Str) (hf : Fits s0 s1) (d : Built) (l : List Edit)
    (h : diffEdits out steps s0 s1 = .ok (d, l)) (p r0 r1 : List Str) (h0 : split s0 = p ++ r0) (h1 : split s1 = p ++ r1) :
    (∀ e ∈ l, (p.length : Int) ≤ e.line0 ∧ (p.length : Int) ≤ e.line1) ∧
    (r0.head? ≠ r1.head? → ∀ m0 m1 q, r0 = m0 ++ q → r1 = m1 ++ q →
      ∀ e ∈ l, e.line0 + e.deleted ≤ p.length + m0.length ∧ e.line1 + e.inserted ≤ p.length + m1.length) := by
  obtain ⟨-, -, -, xb, yb, xe, ye, k1, k2, k3, k4, k5, k6, k7⟩ := diffEdits_result out steps s0 s1 hf d l h
  obtain ⟨a1, a2⟩ := prefix_is _ _ p r0 r1 h0 h1 xb yb k1 k3
  obtain ⟨g1, g2, -⟩ := k1
  obtain ⟨g3, g4, -⟩ := k2
  have hr := (Script.inRange l xb yb xe ye (by omega) (by omega) (by omega) (by omega) k7).2
  refine ⟨fun e he => ?_, fun hne m0 m1 q e0 e1 e he => ?_⟩
  · have := hr e he
    omega
  · have hx : xb = p.length := a2 hne (by omega) (by omega)
    have n0 : (split s0).length = p.length + m0.length + q.length := by rw [h0, e0]; simp; omega
    have n1 : (split s1).length = p.length + m1.length + q.length := by rw [h1, e1]; simp; omega
    have le : xe ≤ p.length + m0.length := by
      by_cases w : xe ≤ p.length + m0.length
      · exact w
      · exfalso
        apply k4
        refine ⟨by omega, by omega, ?_⟩
        rw [h0, h1, e0, e1, ← List.append_assoc, ← List.append_assoc, at_append _ q _ (by simp; omega), at_append _ q _ (by simp; omega)]
        congr 1
        simp; omega
    have := hr e he
    omega


/-- A text of one line. -/
def oneLine : Str := b!"8"

/-- A text of eight lines, one of them that line. -/
def eightLines : Str := b!"41\n8\n7\n6\n10\n7\n48\n12"

theorem eightLines_noClash : NoClash oneLine eightLines := by
  have : ∀ a ∈ split oneLine ++ split eightLines, ∀ b ∈ split oneLine ++ split eightLines, hashString a = hashString b → a = b := by decide +kernel
  exact this

theorem eightLines_split : split oneLine = [b!"8"] ∧ split eightLines = [b!"41", b!"8", b!"7", b!"6", b!"10", b!"7", b!"48", b!"12"] := by
  decide +kernel

/-- **C16** is false: from one line to a text of eight lines that contains it the code deletes that line and inserts all eight, where inserting
seven would do. -/
theorem C16_not_minimal : ∃ s0 s1 d l l', (∀ m steps, Enough steps s0 s1 → diffEdits (some m) steps s0 s1 = .ok (d, l)) ∧
    Leads (split s0) (split s1) l ∧ Leads (split s0) (split s1) l' ∧ cost l = 9 ∧ cost l' = 7 := by
  have hf : Fits oneLine eightLines := by rw [Fits, size, eightLines_split.1, eightLines_split.2]; decide
  have he : Enough 31 oneLine eightLines := by rw [Enough, size, eightLines_split.1, eightLines_split.2]; decide
  rcases diffEdits_cases 31 oneLine eightLines he hf with ⟨d, l, xb, yb, xe, ye, c1, c2, c3, -⟩ | ⟨-, c⟩
  · have hl : l = [⟨0, 0, 8, 1⟩] := by
      have e : (diffEdits (some (fun _ => 0, fun _ => 0)) 31 oneLine eightLines).map Prod.snd = .ok [⟨0, 0, 8, 1⟩] := by decide +kernel
      rw [c3] at e
      simpa [Except.map] using e
    subst hl
    refine ⟨oneLine, eightLines, d, [⟨0, 0, 8, 1⟩], [⟨0, 0, 1, 0⟩, ⟨1, 2, 6, 0⟩], fun m steps hs => ?_, ?_, ?_, by decide, by decide⟩
    · refine diffEdits_more (some m) 31 steps _ _ _ (c3 m) ?_
      rw [Enough, size, eightLines_split.1, eightLines_split.2] at hs
      simpa using hs
    · have o := C14_ordered _ 31 _ _ hf d _ (c3 (fun _ => 0, fun _ => 0))
      exact ⟨o.1, o.2.1, (C12_patch _ 31 _ _ hf d _ (c3 (fun _ => 0, fun _ => 0))).1⟩
    · rw [eightLines_split.1, eightLines_split.2]
      refine ⟨?_, ?_, ?_⟩
      · intro e he
        simp only [List.mem_cons, List.not_mem_nil, or_false] at he
        rcases he with rfl | rfl <;> decide
      · refine List.pairwise_cons.mpr ⟨fun f hf => ?_, List.pairwise_singleton _ _⟩
        simp only [List.mem_cons, List.not_mem_nil, or_false] at hf
        subst hf
        decide
      · decide
  · exact absurd eightLines_noClash.top c

/-! ## C17 -/

/-- **C17.** Two lines, of the same or of different texts, get the same number if and only if they are equal; or the code reads past the end of a
hash table, and then two different lines have the same hash. -/
theorem C17_numbers (steps : Nat) (s0 s1 : Str) (hs : size s0 s1 < steps) :
    (∃ d, buildLines steps s0 s1 = .ok d ∧ d.lines0 = split s0 ∧ d.lines1 = split s1 ∧ d.ids0.length = (split s0).length ∧ d.ids1.length = (split s1).length ∧
      ∀ i j : Nat, ((d.ids0 ++ d.ids1)[i]? = (d.ids0 ++ d.ids1)[j]?) ↔ ((split s0 ++ split s1)[i]? = (split s0 ++ split s1)[j]?)) ∨
    (IsUB (buildLines steps s0 s1) ∧ ∃ a ∈ split s0 ++ split s1, ∃ b ∈ split s0 ++ split s1, a ≠ b ∧ hashString a = hashString b) := by
  rcases buildLines_spec steps s0 s1 hs with ⟨d, b1, b2, b3, b4, b5, b6, b7, b8⟩ | ⟨b1, b2⟩
  · left
    rw [b2] at b4 b6 b7
    rw [b3] at b5 b6 b8
    refine ⟨d, b1, b2, b3, b4, b5, ?_⟩
    -- an index is in the first part, in the second, or in none
    have part : ∀ i : Nat, (∃ k < (split s0).length, (d.ids0 ++ d.ids1)[i]? = some (d.ids0.getD k 0) ∧ (split s0 ++ split s1)[i]? = some ((split s0).getD k []) ) ∨
        (∃ k < (split s1).length, (d.ids0 ++ d.ids1)[i]? = some (d.ids1.getD k 0) ∧ (split s0 ++ split s1)[i]? = some ((split s1).getD k [])) ∨
        ((d.ids0 ++ d.ids1)[i]? = none ∧ (split s0 ++ split s1)[i]? = none) := by
      intro i
      by_cases h : i < (split s0).length
      · left
        refine ⟨i, h, ?_, ?_⟩
        · rw [List.getElem?_append_left (by omega), getD_in _ _ (by omega), List.getElem?_eq_getElem]
        · rw [List.getElem?_append_left (by omega), getD_in _ _ (by omega), List.getElem?_eq_getElem]
      · right
        by_cases h' : i - (split s0).length < (split s1).length
        · left
          refine ⟨i - (split s0).length, h', ?_, ?_⟩
          · rw [List.getElem?_append_right (by omega), b4, getD_in _ _ (by omega), List.getElem?_eq_getElem]
          · rw [List.getElem?_append_right (by omega), getD_in _ _ (by omega), List.getElem?_eq_getElem]
        · right
          exact ⟨List.getElem?_eq_none (by simp; omega), List.getElem?_eq_none (by simp; omega)⟩
    intro i j
    rcases part i with ⟨k, hk, e1, e2⟩ | ⟨k, hk, e1, e2⟩ | ⟨e1, e2⟩ <;> rcases part j with ⟨k', hk', f1, f2⟩ | ⟨k', hk', f1, f2⟩ | ⟨f1, f2⟩ <;>
      rw [e1, e2, f1, f2] <;> simp only [Option.some.injEq, reduceCtorEq]
    · exact b7 k k' hk hk'
    · exact b6 k k' hk hk'
    · rw [eq_comm, b6 k' k hk' hk, eq_comm]
    · exact b8 k k' hk hk'
  · right
    refine ⟨⟨_, b1⟩, ?_⟩
    refine Classical.byContradiction (fun hno => b2 (noCollision_of _ _ (fun a ha b hb hab => ?_)))
    exact Classical.byContradiction (fun hne => hno ⟨a, ha, b, hb, hne, hab⟩)

/-- **C17.** It reads past the end of a table exactly if, in one of the texts, a line of the greatest hash in that text is not the first line with
that hash in both texts. -/
theorem C17_ub_iff (steps : Nat) (s0 s1 : Str) (hs : size s0 s1 < steps) : IsUB (buildLines steps s0 s1) ↔ ¬ TopClear s0 s1 := by
  constructor
  · rintro ⟨w, hw⟩
    rcases buildLines_spec steps s0 s1 hs with ⟨d, b1, -⟩ | ⟨b1, -⟩
    · rw [b1] at hw; cases hw
    · exact (buildLines_end steps s0 s1 hs).mp b1
  · intro h
    exact ⟨_, (buildLines_end steps s0 s1 hs).mpr h⟩

/-- **C17.** The same for `Diff`: with readable memory around the arrays it writes a text exactly if the lines of the greatest hash are clear, and is
undefined behaviour exactly if they are not. -/
theorem C17_diff_ub_iff (m : (Int → Nat) × (Int → Nat)) (steps : Nat) (s0 s1 : Str) (hf : Fits s0 s1) (he : Enough steps s0 s1) :
    ((∃ t, diff (some m) steps s0 s1 = .ok t) ↔ TopClear s0 s1) ∧ (IsUB (diff (some m) steps s0 s1) ↔ ¬ TopClear s0 s1) := by
  have he' := he
  rw [Enough] at he'
  by_cases hc : TopClear s0 s1
  · obtain ⟨t, ht⟩ := C15_total s0 s1 hf hc
    have := ht m steps he
    refine ⟨⟨fun _ => hc, fun _ => ⟨t, this⟩⟩, ⟨?_, fun h => absurd hc h⟩⟩
    rintro ⟨w, hw⟩
    rw [this] at hw; cases hw
  · have hb := (buildLines_end steps s0 s1 (by omega)).mpr hc
    have : diff (some m) steps s0 s1 = .error (.ub "dereferencing the end of the hash table") := by
      simp only [diff, diffEdits, hb, bind, Except.bind]
    refine ⟨⟨?_, fun h => absurd h hc⟩, ⟨fun _ => hc, fun _ => ⟨_, this⟩⟩⟩
    rintro ⟨t, ht⟩
    rw [this] at ht; cases ht

theorem topClear_iff (s0 s1 : Str) : TopClear s0 s1 ↔
    (∀ x ∈ split s0, (∀ y ∈ split s0, hashString y ≤ hashString x) → firstWithHash (split s0 ++ split s1) (hashString x) = some x) ∧
    (∀ x ∈ split s1, (∀ y ∈ split s1, hashString y ≤ hashString x) → firstWithHash (split s0 ++ split s1) (hashString x) = some x) := by
  constructor
  · intro h
    exact ⟨fun x h1 h2 => h x (Or.inl ⟨h1, h2⟩), fun x h1 h2 => h x (Or.inr ⟨h1, h2⟩)⟩
  · rintro ⟨h1, h2⟩ x (h | h)
    · exact h1 x h.1 h.2
    · exact h2 x h.1 h.2

/-- Two different lines of the same hash in a text, and a line of greater hash: a clash, but a harmless one. -/
theorem C17_clash_harmless : ¬ NoClash b!"bxxxxxxxxb\ndxxxxxxxxa\nxxxxxxxxxx" b!"dxxxxxxxxa\nxxxxxxxxxx" ∧
    TopClear b!"bxxxxxxxxb\ndxxxxxxxxa\nxxxxxxxxxx" b!"dxxxxxxxxa\nxxxxxxxxxx" := by
  constructor
  · rw [NoClash]; decide +kernel
  · rw [topClear_iff]; decide +kernel

/-- Two lines of ten characters with the same hash: a text that ends with such a line, compared with the other, is undefined behaviour. -/
theorem C17_clash_ub : ∃ s0 s1 : Str, s0 ≠ s1 ∧ (10 : UInt8) ∉ s0 ∧ (10 : UInt8) ∉ s1 ∧ hashString s0 = hashString s1 ∧
    ∀ out steps, Enough steps s0 s1 → IsUB (diff out steps s0 s1) := by
  have e0 : split b!"bxxxxxxxxb" = [b!"bxxxxxxxxb"] := by decide
  have e1 : split b!"dxxxxxxxxa" = [b!"dxxxxxxxxa"] := by decide
  have hf : Fits b!"bxxxxxxxxb" b!"dxxxxxxxxa" := by rw [Fits, size, e0, e1]; decide
  refine ⟨b!"bxxxxxxxxb", b!"dxxxxxxxxa", by decide, by decide, by decide, by decide +kernel, fun out steps hs => ?_⟩
  have hs10 : 10 ≤ steps := by rw [Enough, size, e0, e1] at hs; simpa using hs
  obtain ⟨k, rfl⟩ : ∃ k, steps = k + 1 := ⟨steps - 1, by omega⟩
  have first : classify (fun j => if j = true then [b!"dxxxxxxxxa"] else [b!"bxxxxxxxxb"]) (k + 1) 1
      ⟨fun j => fillTable (if j = true then [b!"dxxxxxxxxa"] else [b!"bxxxxxxxxb"]) 0 [], fun _ _ => none⟩ =
      .error (.ub "dereferencing the end of the hash table") := by
    have h : classifyFrom (fun j => if j = true then [b!"dxxxxxxxxa"] else [b!"bxxxxxxxxb"]) (hashString b!"bxxxxxxxxb") b!"bxxxxxxxxb" 1
      ⟨fun j => fillTable (if j = true then [b!"dxxxxxxxxa"] else [b!"bxxxxxxxxb"]) 0 [], fun _ _ => none⟩ false =
      .error (.ub "dereferencing the end of the hash table") := by
      have h1 : hashString b!"bxxxxxxxxb" = hashString b!"dxxxxxxxxa" := by decide +kernel
      simp [classifyFrom, classifyIn, fillTable, insertHash, walk, writeIds, bind, Except.bind, h1]
    have h2 : nextClass ⟨fun j => fillTable (if j = true then [b!"dxxxxxxxxa"] else [b!"bxxxxxxxxb"]) 0 [], fun _ _ => none⟩ =
      some (false, hashString b!"bxxxxxxxxb", 0) := by
      have h1 : hashString b!"bxxxxxxxxb" = hashString b!"dxxxxxxxxa" := by decide +kernel
      simp [nextClass, fillTable, insertHash, h1]
    rw [classify, h2]
    simp only [bind, Except.bind]
    have h3 : (if false = true then [b!"dxxxxxxxxa"] else [b!"bxxxxxxxxb"]).getD 0 [] = b!"bxxxxxxxxb" := rfl
    rw [h3, h]
  refine ⟨"dereferencing the end of the hash table", ?_⟩
  simp only [diff, diffEdits, buildLines, linesOf_ok, e0, e1, bind, Except.bind, first]

/-- The value of a list of digits to the base 128. -/
def value128 (s : Str) : Nat := s.foldl (fun h c => h * 128 + c.toNat) 0

theorem hash_short : ∀ (s : Str) (h k : Nat), h < 128 ^ k → k + s.length ≤ 9 → (∀ c ∈ s, c.toNat < 128) →
    s.foldl hashStep h = s.foldl (fun h c => h * 128 + c.toNat) h := by
  intro s
  induction s with
  | nil => intro h k _ _ _; rfl
  | cons c s ih =>
    intro h k h1 h2 h3
    have hc := h3 c (by simp)
    simp only [List.length_cons] at h2
    have hk : 128 ^ k ≤ 128 ^ 8 := Nat.pow_le_pow_right (by omega) (by omega)
    have step : hashStep h c = h * 128 + c.toNat := by
      have z : h / 2 ^ 57 = 0 := Nat.div_eq_of_lt (by omega)
      have w : h * 128 % 2 ^ 64 = h * 128 := Nat.mod_eq_of_lt (by omega)
      rw [hashStep, rotateLeft7, z, w, Nat.or_zero, charValue, if_pos hc, Nat.mod_eq_of_lt (by omega), Nat.add_comm]
    rw [List.foldl_cons, List.foldl_cons, step]
    refine ih _ (k + 1) ?_ (by omega) (fun d hd => h3 d (by simp [hd]))
    rw [Nat.pow_succ]
    have : h * 128 + 128 ≤ 128 ^ k * 128 := by
      have := Nat.mul_le_mul_right 128 (show h + 1 ≤ 128 ^ k by omega)
      omega
    omega

theorem value128_inj : ∀ (n : Nat) (s t : Str), s.length ≤ n → (∀ c ∈ s, 0 < c.toNat ∧ c.toNat < 128) → (∀ c ∈ t, 0 < c.toNat ∧ c.toNat < 128) →
    value128 s = value128 t → s = t := by
  have app : ∀ (s : Str) (c : UInt8), value128 (s ++ [c]) = value128 s * 128 + c.toNat := by
    intro s c; rw [value128, List.foldl_append]; rfl
  intro n
  induction n with
  | zero =>
    intro s t hn hs ht h
    have : s = [] := List.length_eq_zero_iff.mp (by omega)
    subst this
    rcases List.eq_nil_or_concat t with rfl | ⟨t', d, rfl⟩
    · rfl
    · have := ht d (by simp)
      rw [List.concat_eq_append, app] at h
      simp only [value128, List.foldl_nil] at h
      omega
  | succ n ih =>
    intro s t hn hs ht h
    rcases List.eq_nil_or_concat s with rfl | ⟨s', c, rfl⟩
    · rcases List.eq_nil_or_concat t with rfl | ⟨t', d, rfl⟩
      · rfl
      · have := ht d (by simp)
        rw [List.concat_eq_append, app] at h
        simp only [value128, List.foldl_nil] at h
        omega
    · rcases List.eq_nil_or_concat t with rfl | ⟨t', d, rfl⟩
      · have := hs c (by simp)
        rw [List.concat_eq_append, app] at h
        simp only [value128, List.foldl_nil] at h
        omega
      · have h1 := hs c (by simp)
        have h2 := ht d (by simp)
        rw [List.concat_eq_append, List.concat_eq_append, app, app] at h
        have e1 : value128 s' = value128 t' := by omega
        have e2 : c = d := UInt8.toNat_inj.mp (by omega)
        rw [e2, ih s' t' (by simp at hn; omega) (fun x hx => hs x (by simp [hx])) (fun x hx => ht x (by simp [hx])) e1]

/-- **C17.** Lines of at most nine characters, all of them ASCII and none of them NUL, never clash. -/
theorem C17_short_lines (s0 s1 : Str) (h : ∀ l ∈ split s0 ++ split s1, l.length ≤ 9 ∧ ∀ c ∈ l, 0 < c.toNat ∧ c.toNat < 128) : NoClash s0 s1 := by
  intro a ha b hb hab
  obtain ⟨a1, a2⟩ := h a ha
  obtain ⟨b1, b2⟩ := h b hb
  rw [hashString, hashString, hash_short a 0 0 (by simp) (by omega) (fun c hc => (a2 c hc).2), hash_short b 0 0 (by simp) (by omega) (fun c hc => (b2 c hc).2)] at hab
  exact value128_inj 9 a b a1 a2 b2 hab

/-! ## A text for the examples -/

example : split b!"one\ntwo\nthree\n" = [b!"one", b!"two", b!"three", b!""] := by decide

/-- The hypotheses of the theorems above, for two texts: one line is changed, one inserted. -/
theorem sample : Fits b!"one\ntwo\nthree\n" b!"one\n2\nthree\nfour\n" ∧ Enough 100 b!"one\ntwo\nthree\n" b!"one\n2\nthree\nfour\n" ∧
    NoClash b!"one\ntwo\nthree\n" b!"one\n2\nthree\nfour\n" := by
  refine ⟨by simp only [Fits, size]; decide, by simp only [Enough, size]; decide, C17_short_lines _ _ (by decide)⟩

/-- What is written for them, read or not the memory outside. -/
example : (diffEdits none 100 b!"one\ntwo\nthree\n" b!"one\n2\nthree\nfour\n").map Prod.snd = .ok [⟨1, 1, 1, 1⟩, ⟨3, 3, 1, 0⟩] := by decide +kernel

example : patch (split b!"one\ntwo\nthree\n") (split b!"one\n2\nthree\nfour\n") [⟨1, 1, 1, 1⟩, ⟨3, 3, 1, 0⟩] = split b!"one\n2\nthree\nfour\n" := by decide

/-! ## C18 -/

/-- **C18.** The lines of a text, joined by new lines, are the text; no line contains a new line; there is one line more than there are new lines. -/
theorem C18_lines (s : Str) : ∃ ls, linesOf s = .ok ls ∧ join ls = s ∧ (∀ l ∈ ls, (10 : UInt8) ∉ l) ∧ ls.length = s.count 10 + 1 := by
  refine ⟨split s, linesOf_ok s, join_split s, split_clean s, ?_⟩
  induction s with
  | nil => rfl
  | cons c r ih =>
    rw [split]
    obtain ⟨t, ts, h⟩ := List.exists_cons_of_ne_nil (split_ne r)
    rw [h] at ih ⊢
    by_cases hc : c = 10
    · rw [if_pos hc, hc, List.count_cons_self]; simp at ih ⊢; omega
    · rw [if_neg hc, List.count_cons_of_ne hc]; simpa using ih

end Verif.Diff
