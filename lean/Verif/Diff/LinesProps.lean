import Verif.Diff.Spec

/-!
# The lines of a text and their numbers
-/

set_option linter.unusedVariables false
set_option linter.unusedSimpArgs false

namespace Verif.Diff
open Spec

/-! ## Splitting -/

theorem split_ne (s : Str) : split s ≠ [] := by
  cases s with
  | nil => simp [split]
  | cons c r =>
    rw [split]
    split
    · simp
    · split <;> simp

theorem join_split (s : Str) : join (split s) = s := by
  induction s with
  | nil => rfl
  | cons c r ih =>
    rw [split]
    obtain ⟨t, ts, h⟩ := List.exists_cons_of_ne_nil (split_ne r)
    rw [h] at ih ⊢
    by_cases hc : c = 10
    · rw [if_pos hc]
      simp only [join, List.nil_append, ih, hc]
    · rw [if_neg hc]
      cases ts with
      | nil => simp only [join] at ih ⊢; rw [ih]
      | cons u us => simp only [join] at ih ⊢; rw [← ih]; rfl

theorem split_clean (s : Str) : ∀ l ∈ split s, (10 : UInt8) ∉ l := by
  induction s with
  | nil => simp [split]
  | cons c r ih =>
    rw [split]
    obtain ⟨t, ts, h⟩ := List.exists_cons_of_ne_nil (split_ne r)
    rw [h] at ih ⊢
    by_cases hc : c = 10
    · rw [if_pos hc]
      intro l hl
      rcases List.mem_cons.mp hl with rfl | hl
      · simp
      · exact ih l hl
    · rw [if_neg hc]
      intro l hl
      rcases List.mem_cons.mp hl with rfl | hl
      · have := ih t (by simp)
        simp only [List.mem_cons, not_or]
        exact ⟨fun h => hc h.symm, this⟩
      · exact ih l (List.mem_cons_of_mem _ hl)

/-- A text is determined by its lines and the other way round. -/
theorem split_join : ∀ (ls : List Str), ls ≠ [] → (∀ l ∈ ls, (10 : UInt8) ∉ l) → split (join ls) = ls := by
  have one : ∀ l : Str, (10 : UInt8) ∉ l → split l = [l] := by
    intro l
    induction l with
    | nil => intro _; rfl
    | cons c r ih =>
      intro h
      simp only [List.mem_cons, not_or] at h
      rw [split, if_neg (fun hc => h.1 hc.symm), ih h.2]
  have two : ∀ (l : Str) (s : Str), (10 : UInt8) ∉ l → split (l ++ 10 :: s) = l :: split s := by
    intro l s
    induction l with
    | nil => intro _; simp [split]
    | cons c r ih =>
      intro h
      simp only [List.mem_cons, not_or] at h
      rw [List.cons_append, split, if_neg (fun hc => h.1 hc.symm), ih h.2]
  intro ls
  induction ls with
  | nil => intro h; exact absurd rfl h
  | cons l r ih =>
    intro _ h
    cases r with
    | nil => exact one l (h l (by simp))
    | cons m r =>
      rw [join, two l _ (h l (by simp)), ih (by simp) (fun x hx => h x (List.mem_cons_of_mem _ hx))]
      simp

theorem countLines_eq (s : Str) : countLines s = (split s).length := by
  have : ∀ (s : Str) (n : Nat), s.foldl (fun n c => if c = 10 then n + 1 else n) n + 1 = n + (split s).length := by
    intro s
    induction s with
    | nil => intro n; simp [split]
    | cons c r ih =>
      intro n
      rw [List.foldl_cons, ih, split]
      obtain ⟨t, ts, h⟩ := List.exists_cons_of_ne_nil (split_ne r)
      by_cases hc : c = 10
      · rw [if_pos hc, if_pos hc]; simp; omega
      · rw [if_neg hc, if_neg hc, h]; simp
  have := this s 1
  rw [countLines]
  omega

theorem substrAll_append (s : Str) (a b : List Line) (x y : List Str) (ha : substrAll s a = .ok x) (hb : substrAll s b = .ok y) :
    substrAll s (a ++ b) = .ok (x ++ y) := by
  induction a generalizing x with
  | nil => simp only [substrAll, Except.ok.injEq] at ha; subst ha; exact hb
  | cons l a ih =>
    simp only [List.cons_append, substrAll, bind, Except.bind] at ha ⊢
    cases h1 : substr s l.lindex l.length with
    | error f => rw [h1] at ha; cases ha
    | ok t =>
      rw [h1] at ha
      simp only at ha ⊢
      cases h2 : substrAll s a with
      | error f => rw [h2] at ha; cases ha
      | ok ts =>
        rw [h2] at ha
        simp only [Except.ok.injEq] at ha
        subst ha
        rw [ih ts h2]
        rfl

/-- Put bytes in front of the first line. -/
def addFront (p : Str) : List Str → List Str
  | [] => [p]
  | t :: ts => (p ++ t) :: ts

theorem indexLines_ok (s : Str) (n : Nat) : ∀ (r : Str) (i lindex : Nat) (lines : List Line), s.drop i = r → i ≤ s.length → lindex ≤ i →
    n = lines.length + (split r).length →
    ∃ tail, indexLines n s.length r i lindex lines = .ok (lines ++ tail) ∧
      substrAll s tail = .ok (addFront ((s.drop lindex).take (i - lindex)) (split r)) := by
  intro r
  induction r with
  | nil =>
    intro i lindex lines hr hi hl hn
    have hi' : i = s.length := by
      have := congrArg List.length hr
      simp at this
      omega
    refine ⟨[⟨lindex, s.length - lindex⟩], ?_, ?_⟩
    · rw [indexLines, putLine, if_pos (by simp [split] at hn; omega)]
    · simp only [substrAll, substr, bind, Except.bind]
      rw [if_pos (by omega)]
      simp [split, addFront, hi']
  | cons c r ih =>
    intro i lindex lines hr hi hl hn
    have hlt : i < s.length := by
      have := congrArg List.length hr
      simp at this
      omega
    have hdrop : s.drop (i + 1) = r := by
      rw [show i + 1 = i + 1 from rfl, ← List.drop_drop, hr]
      rfl
    have hget : s[i]? = some c := by
      have := congrArg List.head? hr
      rw [List.head?_drop] at this
      simpa using this
    obtain ⟨t, ts, h⟩ := List.exists_cons_of_ne_nil (split_ne r)
    rw [indexLines]
    by_cases hc : c = 10
    · rw [if_pos hc]
      have hlen : lines.length < n := by rw [hn, split, if_pos hc]; simp
      rw [putLine, if_pos hlen]
      simp only
      obtain ⟨tail, q1, q2⟩ := ih (i + 1) (i + 1) (lines ++ [⟨lindex, i - lindex⟩]) hdrop (by omega) (by omega)
        (by rw [hn, split, if_pos hc]; simp; omega)
      refine ⟨⟨lindex, i - lindex⟩ :: tail, ?_, ?_⟩
      · rw [q1]; simp
      · simp only [substrAll, substr, bind, Except.bind]
        rw [if_pos (by omega), q2, split, if_pos hc, h]
        simp [addFront]
    · rw [if_neg hc]
      obtain ⟨tail, q1, q2⟩ := ih (i + 1) lindex lines hdrop (by omega) (by omega) (by rw [hn, split, if_neg hc, h]; simp)
      refine ⟨tail, q1, ?_⟩
      rw [q2, split, if_neg hc, h]
      simp only [addFront]
      have : (s.drop lindex).take (i + 1 - lindex) = (s.drop lindex).take (i - lindex) ++ [c] := by
        rw [show i + 1 - lindex = (i - lindex) + 1 by omega, List.take_add_one]
        have : (s.drop lindex)[i - lindex]? = some c := by
          rw [List.getElem?_drop, show lindex + (i - lindex) = i by omega, hget]
        rw [this]
        rfl
      rw [this]
      simp

theorem linesOf_ok (s : Str) : linesOf s = .ok (split s) := by
  obtain ⟨tail, h1, h2⟩ := indexLines_ok s (countLines s) s 0 0 [] rfl (by omega) (by omega) (by rw [countLines_eq]; simp)
  rw [linesOf, h1]
  simp only [bind, Except.bind, List.nil_append]
  rw [h2]
  obtain ⟨t, ts, h⟩ := List.exists_cons_of_ne_nil (split_ne s)
  simp [h, addFront]

/-! ## The hash tables -/

theorem insertHash_perm (h i : Nat) (t : HashTable) : (insertHash h i t).Perm ((h, i) :: t) := by
  induction t with
  | nil => exact List.Perm.refl _
  | cons p r ih =>
    rw [insertHash]
    split
    · exact List.Perm.refl _
    · exact (List.Perm.cons p ih).trans (List.Perm.swap _ _ _)

theorem insertHash_sorted (h i : Nat) (t : HashTable) (hs : t.Pairwise (fun a b => a.1 ≤ b.1)) :
    (insertHash h i t).Pairwise (fun a b => a.1 ≤ b.1) := by
  induction t with
  | nil => simp [insertHash]
  | cons p r ih =>
    rw [insertHash]
    have hp := List.pairwise_cons.mp hs
    split
    · next hlt =>
      refine List.pairwise_cons.mpr ⟨fun q hq => ?_, hs⟩
      rcases List.mem_cons.mp hq with rfl | hq
      · simp only; omega
      · have := hp.1 q hq; simp only; omega
    · next hlt =>
      refine List.pairwise_cons.mpr ⟨fun q hq => ?_, ih hp.2⟩
      rcases List.mem_cons.mp ((insertHash_perm h i r).mem_iff.mp hq) with rfl | hq
      · simp only; omega
      · exact hp.1 q hq

theorem fillTable_sorted (ss : List Str) : ∀ (i : Nat) (t : HashTable), t.Pairwise (fun a b => a.1 ≤ b.1) →
    (fillTable ss i t).Pairwise (fun a b => a.1 ≤ b.1) := by
  induction ss with
  | nil => intro i t h; exact h
  | cons s ss ih => intro i t h; exact ih _ _ (insertHash_sorted _ _ _ h)

theorem fillTable_mem (ss : List Str) : ∀ (i : Nat) (t : HashTable) (p : Nat × Nat), p ∈ fillTable ss i t ↔
    p ∈ t ∨ ∃ k, k < ss.length ∧ p = (hashString (ss.getD k []), i + k) := by
  induction ss with
  | nil => intro i t p; simp [fillTable]
  | cons s ss ih =>
    intro i t p
    rw [fillTable, ih, (insertHash_perm _ _ _).mem_iff, List.mem_cons]
    constructor
    · rintro ((h | h) | ⟨k, h1, h2⟩)
      · exact Or.inr ⟨0, by simp, by simpa using h⟩
      · exact Or.inl h
      · refine Or.inr ⟨k + 1, by simpa using h1, ?_⟩
        rw [h2]
        simp only [List.getD_cons_succ, Prod.mk.injEq, true_and]
        omega
    · rintro (h | ⟨k, h1, h2⟩)
      · exact Or.inl (Or.inr h)
      · cases k with
        | zero => exact Or.inl (Or.inl (by simpa using h2))
        | succ k =>
          refine Or.inr ⟨k, by simpa using h1, ?_⟩
          rw [h2]
          simp only [List.getD_cons_succ, Prod.mk.injEq, true_and]
          omega

theorem fillTable_length (ss : List Str) : ∀ (i : Nat) (t : HashTable), (fillTable ss i t).length = ss.length + t.length := by
  induction ss with
  | nil => intro i t; simp [fillTable]
  | cons s ss ih =>
    intro i t
    rw [fillTable, ih, (insertHash_perm _ _ _).length_eq]
    simp; omega

theorem walk_spec (key : Nat) (same : Nat → Bool) : ∀ (rest kept : HashTable), (∀ p ∈ rest, key ≤ p.1) → rest.Pairwise (fun a b => a.1 ≤ b.1) →
    walk key same kept rest = .ok (kept ++ rest.filter (fun p => ! (p.1 == key && same p.2)),
      (rest.filter (fun p => p.1 == key && same p.2)).map Prod.snd) ∨
    (walk key same kept rest = .error (.ub "dereferencing the end of the hash table") ∧
      (kept ≠ [] ∨ ∃ p ∈ rest, p.1 = key ∧ same p.2 = false) ∧ ∀ p ∈ rest, p.1 = key) := by
  intro rest
  induction rest with
  | nil =>
    intro kept _ _
    rw [walk]
    by_cases hk : kept = []
    · rw [if_pos hk]; left; simp [hk]
    · rw [if_neg hk]; right; exact ⟨rfl, Or.inl hk, by simp⟩
  | cons q r ih =>
    intro kept hge hs
    obtain ⟨h, i⟩ := q
    have hs' := List.pairwise_cons.mp hs
    have hge' : ∀ p ∈ r, key ≤ p.1 := fun p hp => hge p (List.mem_cons_of_mem _ hp)
    rw [walk]
    by_cases hk : h = key
    · rw [if_pos hk]
      cases hsame : same i with
      | true =>
        simp only [if_true]
        rcases ih kept hge' hs'.2 with e | ⟨e, hc, ha⟩
        · rw [e]; left; simp [hk, hsame]
        · rw [e]; right
          refine ⟨rfl, ?_, ?_⟩
          · rcases hc with hc | ⟨p, hp, hp'⟩
            · exact Or.inl hc
            · exact Or.inr ⟨p, List.mem_cons_of_mem _ hp, hp'⟩
          · intro p hp
            rcases List.mem_cons.mp hp with rfl | hp
            · exact hk
            · exact ha p hp
      | false =>
        simp only [Bool.false_eq_true, if_false]
        rcases ih (kept ++ [(h, i)]) hge' hs'.2 with e | ⟨e, hc, ha⟩
        · rw [e]; left; simp [hk, hsame]
        · rw [e]; right
          refine ⟨rfl, Or.inr ⟨(h, i), by simp, hk, hsame⟩, ?_⟩
          intro p hp
          rcases List.mem_cons.mp hp with rfl | hp
          · exact hk
          · exact ha p hp
    · rw [if_neg hk]
      left
      have hgt : ∀ p ∈ (h, i) :: r, p.1 ≠ key := by
        intro p hp
        have h1 := hge (h, i) (by simp)
        simp only at h1
        rcases List.mem_cons.mp hp with rfl | hp
        · exact hk
        · have := hs'.1 p hp
          simp only at this
          omega
      have f1 : ((h, i) :: r).filter (fun p => ! (p.1 == key && same p.2)) = (h, i) :: r := by
        rw [List.filter_eq_self]
        intro p hp
        simp [hgt p hp]
      have f2 : ((h, i) :: r).filter (fun p => p.1 == key && same p.2) = [] := by
        rw [List.filter_eq_nil_iff]
        intro p hp
        simp [hgt p hp]
      rw [f1, f2]
      simp

theorem writeIds_ok (n id : Nat) : ∀ (a : List Nat) (v : Nat → Option Nat), (∀ i ∈ a, i < n) →
    ∃ v', writeIds n id a v = .ok v' ∧ ∀ k, v' k = if k ∈ a then some id else v k := by
  intro a
  induction a with
  | nil => intro v _; exact ⟨v, rfl, fun k => by simp⟩
  | cons i a ih =>
    intro v h
    obtain ⟨v', h1, h2⟩ := ih (fun k => if k = i then some id else v k) (fun k hk => h k (List.mem_cons_of_mem _ hk))
    refine ⟨v', ?_, fun k => ?_⟩
    · rw [writeIds, if_pos (h i (by simp)), h1]
    · rw [h2]
      by_cases hk : k ∈ a
      · simp [hk]
      · by_cases hi : k = i
        · simp [hi]
        · simp [hk, hi]

/-! ## The numbers -/

/-- A line of one of the two texts. -/
def textAt (T : Bool → List Str) (j : Bool) (i : Nat) : Str := (T j).getD i []

/-- What holds between two rounds. -/
structure Classified (T : Bool → List Str) (id : Nat) (st : Classes) : Prop where
  sorted : ∀ j, (st.hash j).Pairwise (fun a b => a.1 ≤ b.1)
  mem : ∀ j, ∀ p ∈ st.hash j, p.2 < (T j).length ∧ p.1 = hashString (textAt T j p.2)
  cover : ∀ j i, i < (T j).length → st.vec j i = none → ∃ p ∈ st.hash j, p.2 = i
  below : ∀ j i n, st.vec j i = some n → n < id ∧ i < (T j).length
  agree : ∀ j i k l n m, st.vec j i = some n → st.vec k l = some m → (n = m ↔ textAt T j i = textAt T k l)
  fresh : ∀ j i n k, st.vec j i = some n → ∀ p ∈ st.hash k, textAt T j i ≠ textAt T k p.2

/-- The state after the lines with the text `t` in table `j` got the number `id`. -/
def Marked (T : Bool → List Str) (t : Str) (id : Nat) (st st' : Classes) (j : Bool) : Prop :=
  st'.hash j = (st.hash j).filter (fun p => ! decide (t = textAt T j p.2)) ∧
  (∀ i, st'.vec j i = if ∃ p ∈ st.hash j, p.2 = i ∧ t = textAt T j p.2 then some id else st.vec j i)

theorem classifyIn_spec (T : Bool → List Str) (t : Str) (id : Nat) (st : Classes) (j : Bool)
    (hs : (st.hash j).Pairwise (fun a b => a.1 ≤ b.1)) (hm : ∀ p ∈ st.hash j, p.2 < (T j).length ∧ p.1 = hashString (textAt T j p.2))
    (hge : ∀ p ∈ st.hash j, hashString t ≤ p.1) :
    (∃ st', classifyIn T (hashString t) t id st j = .ok st' ∧ Marked T t id st st' j ∧ st'.hash (!j) = st.hash (!j) ∧ st'.vec (!j) = st.vec (!j)) ∨
    (classifyIn T (hashString t) t id st j = .error (.ub "dereferencing the end of the hash table") ∧
      (∃ p ∈ st.hash j, hashString t = hashString (textAt T j p.2) ∧ t ≠ textAt T j p.2) ∧ ∀ p ∈ st.hash j, p.1 = hashString t) := by
  rcases walk_spec (hashString t) (fun i => t = (T j).getD i []) (st.hash j) [] hge hs with e | ⟨e, hc, ha⟩
  · left
    have conv : ∀ p ∈ st.hash j, (p.1 == hashString t && decide (t = (T j).getD p.2 [])) = decide (t = textAt T j p.2) := by
      intro p hp
      by_cases ht : t = textAt T j p.2
      · have := (hm p hp).2
        rw [← ht] at this
        have ht' : t = (T j).getD p.2 [] := ht
        simp only [this, ← ht', ← ht, beq_self_eq_true, decide_true, Bool.and_self]
      · have ht' : ¬ t = (T j).getD p.2 [] := ht
        simp only [ht, ht', decide_false, Bool.and_false]
    have f1 : (st.hash j).filter (fun p => ! (p.1 == hashString t && decide (t = (T j).getD p.2 []))) =
        (st.hash j).filter (fun p => ! decide (t = textAt T j p.2)) :=
      List.filter_congr (fun p hp => by rw [conv p hp])
    have f2 : (st.hash j).filter (fun p => p.1 == hashString t && decide (t = (T j).getD p.2 [])) =
        (st.hash j).filter (fun p => decide (t = textAt T j p.2)) :=
      List.filter_congr (fun p hp => conv p hp)
    rw [f1, f2, List.nil_append] at e
    obtain ⟨v', w1, w2⟩ := writeIds_ok (T j).length id (((st.hash j).filter (fun p => decide (t = textAt T j p.2))).map Prod.snd) (st.vec j)
      (by
        intro i hi
        obtain ⟨p, hp, rfl⟩ := List.mem_map.mp hi
        exact (hm p (List.mem_filter.mp hp).1).1)
    refine ⟨⟨fun k => if k = j then (st.hash j).filter (fun p => ! decide (t = textAt T j p.2)) else st.hash k,
      fun k => if k = j then v' else st.vec k⟩, ?_, ⟨?_, fun i => ?_⟩, ?_, ?_⟩
    · simp only [classifyIn, e, bind, Except.bind, w1]
    · simp
    · simp only [if_true, w2]
      have : (i ∈ ((st.hash j).filter (fun p => decide (t = textAt T j p.2))).map Prod.snd) ↔ ∃ p ∈ st.hash j, p.2 = i ∧ t = textAt T j p.2 := by
        simp only [List.mem_map, List.mem_filter, decide_eq_true_eq]
        constructor
        · rintro ⟨p, ⟨h1, h2⟩, h3⟩; exact ⟨p, h1, h3, h2⟩
        · rintro ⟨p, h1, h3, h2⟩; exact ⟨p, ⟨h1, h2⟩, h3⟩
      by_cases hc : ∃ p ∈ st.hash j, p.2 = i ∧ t = textAt T j p.2
      · rw [if_pos (this.mpr hc), if_pos hc]
      · rw [if_neg (fun h => hc (this.mp h)), if_neg hc]
    · cases j <;> simp
    · cases j <;> simp
  · right
    refine ⟨?_, ?_, ha⟩
    · simp only [classifyIn, e, bind, Except.bind]
    · rcases hc with hc | ⟨p, hp, h1, h2⟩
      · exact absurd rfl hc
      · simp only [decide_eq_false_iff_not] at h2
        exact ⟨p, hp, by rw [← h1]; exact (hm p hp).2, h2⟩

theorem classified_next (T : Bool → List Str) (id : Nat) (st st' : Classes) (t : Str) (h : Classified T id st) (hm : ∀ j, Marked T t id st st' j) :
    Classified T (id + 1) st' := by
  have hmem : ∀ j p, p ∈ st'.hash j ↔ p ∈ st.hash j ∧ t ≠ textAt T j p.2 := by
    intro j p
    rw [(hm j).1]
    simp [List.mem_filter]
  have hvec : ∀ j i n, st'.vec j i = some n → (n = id ∧ t = textAt T j i ∧ i < (T j).length) ∨ (st.vec j i = some n) := by
    intro j i n hv
    rw [(hm j).2] at hv
    by_cases hc : ∃ p ∈ st.hash j, p.2 = i ∧ t = textAt T j p.2
    · rw [if_pos hc] at hv
      simp only [Option.some.injEq] at hv
      obtain ⟨p, h1, h2, h3⟩ := hc
      left
      rw [h2] at h3
      exact ⟨hv.symm, h3, h2 ▸ (h.mem j p h1).1⟩
    · rw [if_neg hc] at hv; exact Or.inr hv
  have hnot : ∀ j i n, st.vec j i = some n → (∃ p k, p ∈ st.hash k ∧ t = textAt T k p.2) → t ≠ textAt T j i := by
    rintro j i n hv ⟨p, k, hp, ht⟩ he
    exact h.fresh j i n k hv p hp (by rw [← he, ← ht])
  have hnew : ∀ j i n, st'.vec j i = some n → ¬ st.vec j i = some n → ∃ p k, p ∈ st.hash k ∧ t = textAt T k p.2 := by
    intro j i n hv hn
    rw [(hm j).2] at hv
    by_cases hc : ∃ p ∈ st.hash j, p.2 = i ∧ t = textAt T j p.2
    · obtain ⟨p, h1, h2, h3⟩ := hc
      exact ⟨p, j, h1, h3⟩
    · rw [if_neg hc] at hv; exact absurd hv hn
  refine ⟨fun j => ?_, fun j p hp => ?_, fun j i hi hv => ?_, fun j i n hv => ?_, fun j i k l n m h1 h2 => ?_, fun j i n k hv p hp => ?_⟩
  · rw [(hm j).1]
    exact (h.sorted j).sublist List.filter_sublist
  · exact h.mem j p ((hmem j p).mp hp).1
  · rw [(hm j).2] at hv
    by_cases hc : ∃ p ∈ st.hash j, p.2 = i ∧ t = textAt T j p.2
    · rw [if_pos hc] at hv; cases hv
    · rw [if_neg hc] at hv
      obtain ⟨p, h1, h2⟩ := h.cover j i hi hv
      exact ⟨p, (hmem j p).mpr ⟨h1, fun ht => hc ⟨p, h1, h2, ht⟩⟩, h2⟩
  · rcases hvec j i n hv with ⟨h1, -, h3⟩ | h1
    · exact ⟨by omega, h3⟩
    · have := h.below j i n h1; exact ⟨by omega, this.2⟩
  · have b1 := fun q => (h.below j i n q).1
    have b2 := fun q => (h.below k l m q).1
    rcases hvec j i n h1 with ⟨a1, a2, a3⟩ | a1
    · rcases hvec k l m h2 with ⟨c1, c2, c3⟩ | c1
      · rw [← a2, ← c2]; simp [a1, c1]
      · have hlt := b2 c1
        have hex := hnew j i n h1 (by intro q; have := b1 q; omega)
        have := hnot k l m c1 hex
        rw [a2] at this
        constructor
        · intro q; omega
        · intro q; exact absurd q this
    · rcases hvec k l m h2 with ⟨c1, c2, c3⟩ | c1
      · have hlt := b1 a1
        have hex := hnew k l m h2 (by intro q; have := b2 q; omega)
        have := hnot j i n a1 hex
        rw [c2] at this
        constructor
        · intro q; omega
        · intro q; exact absurd q.symm this
      · exact h.agree j i k l n m a1 c1
  · obtain ⟨p1, p2⟩ := (hmem k p).mp hp
    rcases hvec j i n hv with ⟨a1, a2, a3⟩ | a1
    · rw [← a2]; exact p2
    · exact h.fresh j i n k a1 p p1

/-- Two lines of the texts with the same hash are the same. -/
def NoCollision (T : Bool → List Str) : Prop :=
  ∀ j i k l, i < (T j).length → l < (T k).length → hashString (textAt T j i) = hashString (textAt T k l) → textAt T j i = textAt T k l

theorem nextClass_none (st : Classes) (h : nextClass st = none) : ∀ j, st.hash j = [] := by
  intro j
  cases h0 : st.hash false with
  | nil =>
    cases h1 : st.hash true with
    | nil => cases j <;> assumption
    | cons q r => simp [nextClass, h0, h1] at h
  | cons p r =>
    cases h1 : st.hash true with
    | nil => simp [nextClass, h0, h1] at h
    | cons q r' =>
      simp only [nextClass, h0, h1] at h
      split at h <;> cases h

theorem nextClass_some (st : Classes) (hs : ∀ j, (st.hash j).Pairwise (fun a b => a.1 ≤ b.1)) (j : Bool) (key i : Nat) (h : nextClass st = some (j, key, i)) :
    (key, i) ∈ st.hash j ∧ (∀ k, ∀ p ∈ st.hash k, key ≤ p.1) ∧ (j = true → ∀ p ∈ st.hash false, key < p.1) := by
  have first : ∀ (k : Bool) (p : Nat × Nat) (r : HashTable), st.hash k = p :: r → ∀ q ∈ st.hash k, p.1 ≤ q.1 := by
    intro k p r hk q hq
    have := hs k
    rw [hk] at this hq
    rcases List.mem_cons.mp hq with rfl | hq
    · omega
    · exact (List.pairwise_cons.mp this).1 q hq
  cases h0 : st.hash false with
  | nil =>
    cases h1 : st.hash true with
    | nil => simp [nextClass, h0, h1] at h
    | cons q r =>
      simp only [nextClass, h0, h1, Option.some.injEq, Prod.mk.injEq] at h
      obtain ⟨rfl, rfl, rfl⟩ := h
      refine ⟨by rw [h1]; simp, fun k p hp => ?_, fun _ p hp => ?_⟩
      · cases k
        · rw [h0] at hp; cases hp
        · exact first true q r h1 p hp
      · cases hp
  | cons p r =>
    cases h1 : st.hash true with
    | nil =>
      simp only [nextClass, h0, h1, Option.some.injEq, Prod.mk.injEq] at h
      obtain ⟨rfl, rfl, rfl⟩ := h
      refine ⟨by rw [h0]; simp, fun k q hq => ?_, fun hj => by cases hj⟩
      cases k
      · exact first false p r h0 q hq
      · rw [h1] at hq; cases hq
    | cons q r' =>
      simp only [nextClass, h0, h1] at h
      split at h
      · next hlt =>
        simp only [Option.some.injEq, Prod.mk.injEq] at h
        obtain ⟨rfl, rfl, rfl⟩ := h
        refine ⟨by rw [h1]; simp, fun k x hx => ?_, fun _ x hx => ?_⟩
        · cases k
          · have := first false p r h0 x hx; omega
          · exact first true q r' h1 x hx
        · rw [← h0] at hx
          have := first false p r h0 x hx; omega
      · next hlt =>
        simp only [Option.some.injEq, Prod.mk.injEq] at h
        obtain ⟨rfl, rfl, rfl⟩ := h
        refine ⟨by rw [h0]; simp, fun k x hx => ?_, fun hj => by cases hj⟩
        cases k
        · exact first false p r h0 x hx
        · have := first true q r' h1 x hx; omega

/-- One round of the loop: all lines with one text get a number, or the code reads past the end of a table, which needs two different lines of
the same hash. -/
theorem round_spec (T : Bool → List Str) (id : Nat) (st : Classes) (h : Classified T id st) (hi : Bool) (key i : Nat) (hn : nextClass st = some (hi, key, i)) :
    let t := (T hi).getD i []
    (∃ st', classifyFrom T key t id st hi = .ok st' ∧ (∀ j, Marked T t id st st' j) ∧ (∃ p ∈ st.hash hi, t = textAt T hi p.2)) ∨
    (classifyFrom T key t id st hi = .error (.ub "dereferencing the end of the hash table") ∧
      ∃ j k l, k < (T hi).length ∧ l < (T j).length ∧ hashString (textAt T hi k) = hashString (textAt T j l) ∧ textAt T hi k ≠ textAt T j l) := by
  intro t
  obtain ⟨n1, n2, n3⟩ := nextClass_some st h.sorted hi key i hn
  have ht : t = textAt T hi i := rfl
  have hkey : key = hashString t := (h.mem hi (key, i) n1).2
  have hlen : i < (T hi).length := (h.mem hi (key, i) n1).1
  have hin : ∃ p ∈ st.hash hi, t = textAt T hi p.2 := ⟨(key, i), n1, rfl⟩
  rw [hkey] at n2 n3 ⊢
  cases hi with
  | true =>
    simp only [classifyFrom]
    rcases classifyIn_spec T t id st true (h.sorted true) (h.mem true) (n2 true) with ⟨st', c1, c2, c3, c4⟩ | ⟨c1, ⟨p, hp, c2, c3⟩, -⟩
    · left
      refine ⟨st', c1, fun j => ?_, hin⟩
      cases j with
      | true => exact c2
      | false =>
        simp only [Bool.not_true] at c3 c4
        have no : ∀ p ∈ st.hash false, t ≠ textAt T false p.2 := by
          intro p hp he
          have a := n3 rfl p hp
          have b := (h.mem false p hp).2
          rw [← he] at b
          omega
        refine ⟨?_, fun i => ?_⟩
        · rw [c3]
          symm
          rw [List.filter_eq_self]
          intro p hp
          simp [no p hp]
        · rw [c4, if_neg]
          rintro ⟨p, hp, -, he⟩
          exact no p hp he
    · right
      exact ⟨c1, true, i, p.2, hlen, (h.mem true p hp).1, c2, c3⟩
  | false =>
    simp only [classifyFrom]
    rcases classifyIn_spec T t id st false (h.sorted false) (h.mem false) (n2 false) with ⟨st1, c1, c2, c3, c4⟩ | ⟨c1, ⟨p, hp, c2, c3⟩, -⟩
    · simp only [Bool.not_false] at c3 c4
      rcases classifyIn_spec T t id st1 true (by rw [c3]; exact h.sorted true) (by rw [c3]; exact h.mem true) (by rw [c3]; exact n2 true) with
        ⟨st', d1, d2, d3, d4⟩ | ⟨d1, ⟨p, hp, d2, d3⟩, -⟩
      · left
        simp only [Bool.not_true] at d3 d4
        refine ⟨st', by simp only [c1, d1], fun j => ?_, hin⟩
        cases j with
        | true => rw [Marked, c3, c4] at d2; exact d2
        | false => rw [Marked, d3, d4]; exact c2
      · right
        rw [c3] at hp
        exact ⟨by simp only [c1, d1], true, i, p.2, hlen, (h.mem true p hp).1, d2, d3⟩
    · right
      exact ⟨by simp only [c1], false, i, p.2, hlen, (h.mem false p hp).1, c2, c3⟩

theorem classify_spec (T : Bool → List Str) : ∀ (steps id : Nat) (st : Classes), Classified T id st → (st.hash false).length + (st.hash true).length < steps →
    (∃ id' st', classify T steps id st = .ok st' ∧ Classified T id' st' ∧ ∀ j, st'.hash j = []) ∨
    (classify T steps id st = .error (.ub "dereferencing the end of the hash table") ∧ ¬ NoCollision T) := by
  intro steps
  induction steps with
  | zero => intro id st _ h; omega
  | succ steps ih =>
    intro id st h hlen
    rw [classify]
    cases hn : nextClass st with
    | none => exact Or.inl ⟨id, st, rfl, h, nextClass_none st hn⟩
    | some v =>
      obtain ⟨hi, key, i⟩ := v
      simp only
      rcases round_spec T id st h hi key i hn with ⟨st', c2, c3, p, hp, c4⟩ | ⟨c1, j, k, l, c2, c3, c4, c5⟩
      · simp only [bind, Except.bind, c2]
        refine ih (id + 1) st' (classified_next T id st st' _ h c3) ?_
        have le : ∀ j, (st'.hash j).length ≤ (st.hash j).length := fun j => by rw [(c3 j).1]; exact List.length_filter_le _ _
        have lt : (st'.hash hi).length < (st.hash hi).length := by
          rw [(c3 hi).1]
          exact List.length_filter_lt_length_iff_exists.mpr ⟨p, hp, by simp [← c4]⟩
        have a := le false
        have b := le true
        cases hi <;> omega
      · right
        refine ⟨?_, fun hc => c5 (hc hi k j l c2 c3 c4)⟩
        simp only [bind, Except.bind, c1]

theorem collectIds_ok (v : Nat → Option Nat) : ∀ (n i : Nat), (∀ k, i ≤ k → k < i + n → ∃ m, v k = some m) →
    ∃ l, collectIds v n i = .ok l ∧ l.length = n ∧ ∀ k, k < n → v (i + k) = some (l.getD k 0) := by
  intro n
  induction n with
  | zero => intro i _; exact ⟨[], rfl, rfl, fun k hk => by omega⟩
  | succ n ih =>
    intro i h
    obtain ⟨m, hm⟩ := h i (by omega) (by omega)
    obtain ⟨l, h1, h2, h3⟩ := ih (i + 1) (fun k k1 k2 => h k (by omega) (by omega))
    refine ⟨m :: l, ?_, by simp [h2], fun k hk => ?_⟩
    · simp only [collectIds, hm, bind, Except.bind, h1]
    · cases k with
      | zero => simpa using hm
      | succ k => rw [show i + (k + 1) = i + 1 + k by omega, h3 k (by omega)]; simp

/-- The two lists of lines, indexed. -/
def both (a b : List Str) : Bool → List Str := fun j => if j then b else a

/-- What `BuildLines` does: it cuts the texts in lines and numbers these so that equal lines, and only equal lines, have equal numbers; or
it reads past the end of a hash table, which needs two different lines with the same hash. -/
theorem buildLines_spec (steps : Nat) (s0 s1 : Str) (hsteps : (split s0).length + (split s1).length < steps) :
    (∃ d, buildLines steps s0 s1 = .ok d ∧ d.lines0 = split s0 ∧ d.lines1 = split s1 ∧ d.ids0.length = d.lines0.length ∧
      d.ids1.length = d.lines1.length ∧
      (∀ i j, i < d.lines0.length → j < d.lines1.length → (d.ids0.getD i 0 = d.ids1.getD j 0 ↔ d.lines0.getD i [] = d.lines1.getD j [])) ∧
      (∀ i j, i < d.lines0.length → j < d.lines0.length → (d.ids0.getD i 0 = d.ids0.getD j 0 ↔ d.lines0.getD i [] = d.lines0.getD j [])) ∧
      (∀ i j, i < d.lines1.length → j < d.lines1.length → (d.ids1.getD i 0 = d.ids1.getD j 0 ↔ d.lines1.getD i [] = d.lines1.getD j []))) ∨
    (buildLines steps s0 s1 = .error (.ub "dereferencing the end of the hash table") ∧ ¬ NoCollision (both (split s0) (split s1))) := by
  have start : Classified (both (split s0) (split s1)) 1 ⟨fun j => fillTable (both (split s0) (split s1) j) 0 [], fun _ _ => none⟩ := by
    refine ⟨fun j => fillTable_sorted _ _ _ List.Pairwise.nil, fun j p hp => ?_, fun j i hi _ => ?_, ?_, ?_, ?_⟩
    · rw [fillTable_mem] at hp
      rcases hp with hp | ⟨k, h1, h2⟩
      · cases hp
      · rw [h2]; simp only [Nat.zero_add]; exact ⟨h1, rfl⟩
    · exact ⟨(hashString ((both (split s0) (split s1) j).getD i []), i), (fillTable_mem _ _ _ _).mpr (Or.inr ⟨i, hi, by simp⟩), rfl⟩
    · intro j i n h; cases h
    · intro j i k l n m h; cases h
    · intro j i n k h; cases h
  rcases classify_spec (both (split s0) (split s1)) steps 1 _ start
    (by simp only [fillTable_length, both]; simpa using hsteps) with ⟨id', st', c1, c2, c3⟩ | ⟨c1, c2⟩
  · left
    have all : ∀ j i, i < (both (split s0) (split s1) j).length → ∃ m, st'.vec j i = some m := by
      intro j i hi
      cases hv : st'.vec j i with
      | none =>
        obtain ⟨p, hp, -⟩ := c2.cover j i hi hv
        rw [c3 j] at hp
        cases hp
      | some m => exact ⟨m, rfl⟩
    obtain ⟨l0, a1, a2, a3⟩ := collectIds_ok (st'.vec false) (split s0).length 0 (fun k _ hk => all false k (by simpa [both] using hk))
    obtain ⟨l1, b1, b2, b3⟩ := collectIds_ok (st'.vec true) (split s1).length 0 (fun k _ hk => all true k (by simpa [both] using hk))
    refine ⟨⟨split s0, split s1, l0, l1⟩, ?_, rfl, rfl, a2, b2, ?_, ?_, ?_⟩
    · have c1' : classify (fun j => if j = true then split s1 else split s0) steps 1
        ⟨fun j => fillTable (if j = true then split s1 else split s0) 0 [], fun _ _ => none⟩ = .ok st' := c1
      simp only [buildLines, linesOf_ok, bind, Except.bind, c1', a1, b1]
    · intro i j hi hj
      have p := a3 i hi
      have q := b3 j hj
      rw [Nat.zero_add] at p q
      exact c2.agree false i true j _ _ p q
    · intro i j hi hj
      have p := a3 i hi
      have q := a3 j hj
      rw [Nat.zero_add] at p q
      exact c2.agree false i false j _ _ p q
    · intro i j hi hj
      have p := b3 i hi
      have q := b3 j hj
      rw [Nat.zero_add] at p q
      exact c2.agree true i true j _ _ p q
  · right
    refine ⟨?_, c2⟩
    have c1' : classify (fun j => if j = true then split s1 else split s0) steps 1
      ⟨fun j => fillTable (if j = true then split s1 else split s0) 0 [], fun _ _ => none⟩ = .error (.ub "dereferencing the end of the hash table") := c1
    simp only [buildLines, linesOf_ok, bind, Except.bind, c1']

end Verif.Diff
