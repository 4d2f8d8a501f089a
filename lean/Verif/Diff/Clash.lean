import Verif.Diff.Scripts

/-!
# C17: exactly when two lines of the same hash are harmful

The tables are sorted by hash, and inside a hash by line number.  A table is walked past its end exactly when the last class of it is at hand and
a line of that class differs from the line the class is compared with, which is the first line of that hash in both texts.
-/

namespace Verif.Diff

open Verif.Diff.Spec

/-! ## The order of the tables -/

/-- The order of a hash table. -/
def Before (a b : Nat × Nat) : Prop := a.1 < b.1 ∨ (a.1 = b.1 ∧ a.2 < b.2)

theorem insertHash_before (h i : Nat) (t : HashTable) (ht : t.Pairwise Before) (hi : ∀ p ∈ t, p.2 < i) : (insertHash h i t).Pairwise Before := by
  induction t with
  | nil => simp [insertHash]
  | cons p r ih =>
    have hp := List.pairwise_cons.mp ht
    rw [insertHash]
    split
    · next hlt =>
      refine List.pairwise_cons.mpr ⟨fun q hq => ?_, ht⟩
      rcases List.mem_cons.mp hq with rfl | hq
      · exact Or.inl hlt
      · rcases hp.1 q hq with h1 | ⟨h1, -⟩
        · exact Or.inl (by simp only; omega)
        · exact Or.inl (by simp only; omega)
    · next hlt =>
      refine List.pairwise_cons.mpr ⟨fun q hq => ?_, ih hp.2 (fun q hq => hi q (List.mem_cons_of_mem _ hq))⟩
      rcases List.mem_cons.mp ((insertHash_perm h i r).mem_iff.mp hq) with rfl | hq
      · have := hi p (by simp)
        simp only [Before]
        omega
      · exact hp.1 q hq

theorem fillTable_before (ss : List Str) : ∀ (i : Nat) (t : HashTable), t.Pairwise Before → (∀ p ∈ t, p.2 < i) → (fillTable ss i t).Pairwise Before := by
  induction ss with
  | nil => intro i t h _; exact h
  | cons s ss ih =>
    intro i t h hi
    refine ih _ _ (insertHash_before _ _ _ h hi) (fun p hp => ?_)
    rcases List.mem_cons.mp ((insertHash_perm _ _ _).mem_iff.mp hp) with rfl | hp
    · simp
    · have := hi p hp; omega

/-- The table of a text before any line is numbered. -/
def fullTable (T : Bool → List Str) (j : Bool) : HashTable := fillTable (T j) 0 []

theorem fullTable_mem (T : Bool → List Str) (j : Bool) (p : Nat × Nat) : p ∈ fullTable T j ↔ p.2 < (T j).length ∧ p.1 = hashString (textAt T j p.2) := by
  rw [fullTable, fillTable_mem]
  constructor
  · rintro (h | ⟨k, h1, rfl⟩)
    · cases h
    · simp only [Nat.zero_add]; exact ⟨h1, rfl⟩
  · rintro ⟨h1, h2⟩
    exact Or.inr ⟨p.2, h1, by rw [Nat.zero_add]; exact Prod.ext h2 rfl⟩

theorem fullTable_before (T : Bool → List Str) (j : Bool) : (fullTable T j).Pairwise Before := fillTable_before _ _ _ List.Pairwise.nil (by simp)

/-! ## One round -/

theorem walk_end (key : Nat) (same : Nat → Bool) : ∀ (rest kept : HashTable), (∀ p ∈ rest, p.1 = key) → (kept ≠ [] ∨ ∃ p ∈ rest, same p.2 = false) →
    walk key same kept rest = .error (.ub "dereferencing the end of the hash table") := by
  intro rest
  induction rest with
  | nil =>
    intro kept _ h
    rcases h with h | ⟨p, hp, -⟩
    · rw [walk, if_neg h]
    · cases hp
  | cons q r ih =>
    intro kept hk h
    obtain ⟨hh, i⟩ := q
    have hk' : ∀ p ∈ r, p.1 = key := fun p hp => hk p (List.mem_cons_of_mem _ hp)
    rw [walk, if_pos (show hh = key from hk (hh, i) (by simp))]
    cases hs : same i with
    | true =>
      simp only [if_true]
      rw [ih kept hk' ?_]
      rcases h with h | ⟨p, hp, h⟩
      · exact Or.inl h
      · rcases List.mem_cons.mp hp with rfl | hp
        · simp only at h; rw [hs] at h; cases h
        · exact Or.inr ⟨p, hp, h⟩
    | false =>
      simp only [Bool.false_eq_true, if_false]
      exact ih _ hk' (Or.inl (by simp))

theorem classifyIn_end (T : Bool → List Str) (t : Str) (id : Nat) (st st' : Classes) (j : Bool)
    (h : classifyIn T (hashString t) t id st j = .ok st') (hk : ∀ p ∈ st.hash j, p.1 = hashString t) : ∀ p ∈ st.hash j, t = textAt T j p.2 := by
  intro p hp
  refine Classical.byContradiction (fun hne => ?_)
  have := walk_end (hashString t) (fun i => t = (T j).getD i []) (st.hash j) [] hk (Or.inr ⟨p, hp, decide_eq_false hne⟩)
  simp only [classifyIn, this, bind, Except.bind] at h
  cases h

/-- One round, exactly: it fails if and only if some table has lines of the lowest hash only, and one of them differs from the line chosen. -/
theorem round_exact (T : Bool → List Str) (id : Nat) (st : Classes) (h : Classified T id st) (hi : Bool) (key i : Nat) (hn : nextClass st = some (hi, key, i)) :
    let t := (T hi).getD i []
    (∃ st', classifyFrom T key t id st hi = .ok st' ∧ (∀ j, Marked T t id st st' j) ∧ (∃ p ∈ st.hash hi, t = textAt T hi p.2) ∧
      ∀ j, (∀ p ∈ st.hash j, p.1 = key) → ∀ p ∈ st.hash j, t = textAt T j p.2) ∨
    (classifyFrom T key t id st hi = .error (.ub "dereferencing the end of the hash table") ∧
      ∃ j, (∀ p ∈ st.hash j, p.1 = key) ∧ ∃ p ∈ st.hash j, t ≠ textAt T j p.2) := by
  intro t
  obtain ⟨n1, n2, n3⟩ := nextClass_some st h.sorted hi key i hn
  have hkey : key = hashString t := (h.mem hi (key, i) n1).2
  rcases round_spec T id st h hi key i hn with ⟨st', c1, c2, c3⟩ | ⟨c1, -⟩
  · left
    refine ⟨st', c1, c2, c3, fun j hall => ?_⟩
    have c1' : classifyFrom T key t id st hi = .ok st' := c1
    rw [hkey] at c1' hall n3
    cases hi with
    | true =>
      simp only [classifyFrom] at c1'
      cases j with
      | true => exact classifyIn_end T t id st st' true c1' hall
      | false =>
        intro p hp
        have a := n3 rfl p hp
        have b := hall p hp
        omega
    | false =>
      simp only [classifyFrom] at c1'
      rcases hc : classifyIn T (hashString t) t id st false with e | st1
      · rw [hc] at c1'; cases c1'
      · rw [hc] at c1'
        simp only at c1'
        cases j with
        | false => exact classifyIn_end T t id st st1 false hc hall
        | true =>
          rw [hkey] at n2
          rcases classifyIn_spec T t id st false (h.sorted false) (h.mem false) (n2 false) with ⟨s2, d1, -, d3, -⟩ | ⟨d1, -⟩
          · rw [d1] at hc
            injection hc with hc
            subst hc
            simp only [Bool.not_false] at d3
            have := classifyIn_end T t id s2 st' true c1' (by rw [d3]; exact hall)
            rw [d3] at this
            exact this
          · rw [d1] at hc; cases hc
  · right
    refine ⟨c1, ?_⟩
    have c1' : classifyFrom T key t id st hi = .error (.ub "dereferencing the end of the hash table") := c1
    rw [hkey] at c1' n2 ⊢
    cases hi with
    | true =>
      simp only [classifyFrom] at c1'
      rcases classifyIn_spec T t id st true (h.sorted true) (h.mem true) (n2 true) with ⟨s2, d1, -⟩ | ⟨-, ⟨p, hp, -, d2⟩, d3⟩
      · rw [d1] at c1'; cases c1'
      · exact ⟨true, d3, p, hp, d2⟩
    | false =>
      simp only [classifyFrom] at c1'
      rcases classifyIn_spec T t id st false (h.sorted false) (h.mem false) (n2 false) with ⟨s1, d1, -, e3, -⟩ | ⟨-, ⟨p, hp, -, d2⟩, d3⟩
      · rw [d1] at c1'
        simp only [Bool.not_false] at e3 c1'
        rcases classifyIn_spec T t id s1 true (by rw [e3]; exact h.sorted true) (by rw [e3]; exact h.mem true) (by rw [e3]; exact n2 true) with
          ⟨s2, d1, -⟩ | ⟨-, ⟨p, hp, -, d2⟩, d3⟩
        · rw [d1] at c1'; cases c1'
        · rw [e3] at hp d3
          exact ⟨true, d3, p, hp, d2⟩
      · exact ⟨false, d3, p, hp, d2⟩

/-! ## All rounds -/

/-- `t` is the first line of that hash. -/
def IsFirst (T : Bool → List Str) (key : Nat) (t : Str) : Prop := firstWithHash (T false ++ T true) key = some t

/-- What is known of the rounds so far: `R` are the lines that have a number. -/
structure Hist (T : Bool → List Str) (R : Str → Prop) (st : Classes) : Prop where
  tables : ∀ j p, p ∈ st.hash j ↔ p ∈ fullTable T j ∧ ¬ R (textAt T j p.2)
  order : ∀ j, (st.hash j).Pairwise Before
  low : ∀ s, R s → ∀ j, ∀ p ∈ st.hash j, hashString s ≤ p.1
  late : ∀ j, ∀ p ∈ st.hash j, ∀ t, IsFirst T p.1 t → R t → ∃ q ∈ st.hash j, p.1 < q.1
  tops : ∀ j x, Highest (T j) x → R x → IsFirst T (hashString x) x

theorem textAt_mem (T : Bool → List Str) (j : Bool) (i : Nat) (h : i < (T j).length) : textAt T j i ∈ T j := by
  rw [textAt, getD_in _ _ h]
  exact List.getElem_mem h

theorem mem_textAt (T : Bool → List Str) (j : Bool) (x : Str) (h : x ∈ T j) : ∃ i, i < (T j).length ∧ textAt T j i = x := by
  obtain ⟨i, h1, h2⟩ := List.mem_iff_getElem.mp h
  exact ⟨i, h1, by rw [textAt, getD_in _ _ h1, h2]⟩

theorem first_exists (T : Bool → List Str) (j : Bool) (x : Str) (h : x ∈ T j) : ∃ t, IsFirst T (hashString x) t := by
  have : (firstWithHash (T false ++ T true) (hashString x)).isSome := by
    rw [firstWithHash, List.find?_isSome]
    refine ⟨x, ?_, by simp⟩
    cases j
    · exact List.mem_append_left _ h
    · exact List.mem_append_right _ h
  exact Option.isSome_iff_exists.mp this

theorem find_before (p : Str → Bool) : ∀ (l : List Str) (t : Str), l.find? p = some t → ∀ i, i < l.length → p (l.getD i []) = true →
    ∃ k, k ≤ i ∧ l.getD k [] = t := by
  intro l
  induction l with
  | nil => intro t h; cases h
  | cons a l ih =>
    intro t h i hi hp
    by_cases ha : p a = true
    · rw [List.find?_cons_of_pos ha] at h
      injection h with h
      exact ⟨0, by omega, by simpa using h⟩
    · rw [List.find?_cons_of_neg ha] at h
      cases i with
      | zero => exact absurd (by simpa using hp) ha
      | succ i =>
        obtain ⟨k, h1, h2⟩ := ih t h i (by simpa using hi) (by simpa using hp)
        exact ⟨k + 1, by omega, by simpa using h2⟩

/-- The line chosen is the first line of its hash, if that one has no number yet. -/
theorem pick_first (T : Bool → List Str) (R : Str → Prop) (st : Classes) (hh : Hist T R st) (hs : ∀ j, (st.hash j).Pairwise (fun a b => a.1 ≤ b.1))
    (hi : Bool) (key i : Nat) (hn : nextClass st = some (hi, key, i)) (t : Str) (hf : IsFirst T key t) (hr : ¬ R t) : (T hi).getD i [] = t := by
  obtain ⟨n1, n2, n3⟩ := nextClass_some st hs hi key i hn
  obtain ⟨m1, m2⟩ := (hh.tables hi _).mp n1
  obtain ⟨m3, m4⟩ := (fullTable_mem T hi _).mp m1
  simp only at m2 m3 m4
  have hkt : hashString t = key := by
    have := List.find?_some hf
    simpa using this
  have entry : ∀ j k, k < (T j).length → (T j).getD k [] = t → (key, k) ∈ st.hash j := by
    intro j k hk ht
    refine (hh.tables j _).mpr ⟨(fullTable_mem T j _).mpr ⟨hk, ?_⟩, ?_⟩
    · simp only [textAt, ht, hkt]
    · simp only [textAt, ht]; exact hr
  have head : ∀ k, (key, k) ∈ st.hash hi → i ≤ k := by
    intro k hk
    have hd : ∃ r, st.hash hi = (key, i) :: r := by
      cases h0 : st.hash false with
      | nil =>
        cases h1 : st.hash true with
        | nil => simp [nextClass, h0, h1] at hn
        | cons q r =>
          simp only [nextClass, h0, h1, Option.some.injEq, Prod.mk.injEq] at hn
          obtain ⟨rfl, rfl, rfl⟩ := hn
          exact ⟨r, h1⟩
      | cons p r =>
        cases h1 : st.hash true with
        | nil =>
          simp only [nextClass, h0, h1, Option.some.injEq, Prod.mk.injEq] at hn
          obtain ⟨rfl, rfl, rfl⟩ := hn
          exact ⟨r, h0⟩
        | cons q r' =>
          simp only [nextClass, h0, h1] at hn
          split at hn
          · simp only [Option.some.injEq, Prod.mk.injEq] at hn
            obtain ⟨rfl, rfl, rfl⟩ := hn
            exact ⟨r', h1⟩
          · simp only [Option.some.injEq, Prod.mk.injEq] at hn
            obtain ⟨rfl, rfl, rfl⟩ := hn
            exact ⟨r, h0⟩
    obtain ⟨r, hr'⟩ := hd
    have ho := hh.order hi
    rw [hr'] at ho hk
    rcases List.mem_cons.mp hk with hk | hk
    · injection hk with _ hk; omega
    · rcases (List.pairwise_cons.mp ho).1 _ hk with h1 | ⟨-, h1⟩
      · simp only at h1; omega
      · simp only at h1; omega
  have hp : (fun l => hashString l == key) ((T hi).getD i []) = true := by
    simp only [beq_iff_eq]; exact m4.symm
  cases hi with
  | false =>
    -- the first line of that hash is in the first text
    have hf0 : (T false).find? (fun l => hashString l == key) = some t := by
      rw [IsFirst, firstWithHash, List.find?_append] at hf
      have hsome : ((T false).find? (fun l => hashString l == key)).isSome := by
        rw [List.find?_isSome]
        exact ⟨_, textAt_mem T false i m3, hp⟩
      obtain ⟨u, hu⟩ := Option.isSome_iff_exists.mp hsome
      rw [hu] at hf ⊢
      simpa using hf
    obtain ⟨k, k1, k2⟩ := find_before _ _ _ hf0 i m3 hp
    have := head k (entry false k (by omega) k2)
    rw [show i = k by omega]; exact k2
  | true =>
    -- no line of the first text has that hash
    have no : (T false).find? (fun l => hashString l == key) = none := by
      rcases hc : (T false).find? (fun l => hashString l == key) with _ | u
      · rfl
      · have hut : u = t := by
          rw [IsFirst, firstWithHash, List.find?_append, hc] at hf
          simpa using hf
        obtain ⟨k, k1, k2⟩ := mem_textAt T false u (List.mem_of_find?_eq_some hc)
        have := n3 rfl _ (entry false k k1 (by rw [hut] at k2; exact k2))
        simp only at this
        omega
    have hf1 : (T true).find? (fun l => hashString l == key) = some t := by
      rw [IsFirst, firstWithHash, List.find?_append, no] at hf
      simpa using hf
    obtain ⟨k, k1, k2⟩ := find_before _ _ _ hf1 i m3 hp
    have := head k (entry true k (by omega) k2)
    rw [show i = k by omega]; exact k2

theorem hist_next (T : Bool → List Str) (R : Str → Prop) (id : Nat) (st st' : Classes) (h : Classified T id st) (hh : Hist T R st)
    (hi : Bool) (key i : Nat) (hn : nextClass st = some (hi, key, i)) (hm : ∀ j, Marked T ((T hi).getD i []) id st st' j)
    (he : ∀ j, (∀ p ∈ st.hash j, p.1 = key) → ∀ p ∈ st.hash j, (T hi).getD i [] = textAt T j p.2) :
    Hist T (fun s => R s ∨ s = (T hi).getD i []) st' := by
  obtain ⟨n1, n2, n3⟩ := nextClass_some st h.sorted hi key i hn
  have hkey : key = hashString ((T hi).getD i []) := (h.mem hi (key, i) n1).2
  have hlen : i < (T hi).length := (h.mem hi (key, i) n1).1
  have hmem : ∀ j p, p ∈ st'.hash j ↔ p ∈ st.hash j ∧ textAt T j p.2 ≠ (T hi).getD i [] := by
    intro j p
    rw [(hm j).1]
    simp only [List.mem_filter, Bool.not_eq_true', decide_eq_false_iff_not, ne_eq, and_congr_right_iff]
    exact fun _ => not_congr eq_comm
  have hfirst : ∀ t, IsFirst T key t → ¬ R t → t = (T hi).getD i [] := fun t h1 h2 => (pick_first T R st hh h.sorted hi key i hn t h1 h2).symm
  refine ⟨fun j p => ?_, fun j => ?_, fun s hs j p hp => ?_, fun j p hp t ht hr => ?_, fun j x hx hr => ?_⟩
  · rw [hmem, hh.tables]
    constructor
    · rintro ⟨⟨h1, h2⟩, h3⟩
      exact ⟨h1, fun h4 => h4.elim h2 h3⟩
    · rintro ⟨h1, h2⟩
      exact ⟨⟨h1, fun h4 => h2 (Or.inl h4)⟩, fun h4 => h2 (Or.inr h4)⟩
  · rw [(hm j).1]
    exact (hh.order j).sublist List.filter_sublist
  · have hp' := ((hmem j p).mp hp).1
    rcases hs with hs | rfl
    · exact hh.low s hs j p hp'
    · rw [← hkey]; exact n2 j p hp'
  · obtain ⟨hp1, hp2⟩ := (hmem j p).mp hp
    -- a larger entry in the table before is still there
    have keep : ∀ q ∈ st.hash j, p.1 < q.1 → ∃ q ∈ st'.hash j, p.1 < q.1 := by
      intro q hq hlt
      refine ⟨q, (hmem j q).mpr ⟨hq, fun hc => ?_⟩, hlt⟩
      have a := (h.mem j q hq).2
      rw [hc, ← hkey] at a
      have b := n2 j p hp1
      omega
    rcases hr with hr | hr
    · obtain ⟨q, q1, q2⟩ := hh.late j p hp1 t ht hr
      exact keep q q1 q2
    · have hpk : p.1 = key := by
        have := List.find?_some ht
        simp only [beq_iff_eq] at this
        rw [hkey, ← hr, this]
      refine Classical.byContradiction (fun hno => ?_)
      have hall : ∀ q ∈ st.hash j, q.1 = key := by
        intro q hq
        refine Classical.byContradiction (fun hne => hno (keep q hq ?_))
        have := n2 j q hq
        omega
      exact hp2 (he j hall p hp1).symm
  · rcases hr with hr | hr
    · exact hh.tops j x hx hr
    · by_cases hrx : R x
      · exact hh.tops j x hx hrx
      obtain ⟨t, ht⟩ := first_exists T hi _ (textAt_mem T hi i hlen)
      have ht' : IsFirst T key t := by rw [hkey]; exact ht
      by_cases hrt : R t
      · exfalso
        obtain ⟨k, k1, k2⟩ := mem_textAt T j x hx.1
        have hpj : (key, k) ∈ st.hash j := by
          refine (hh.tables j _).mpr ⟨(fullTable_mem T j _).mpr ⟨k1, ?_⟩, ?_⟩
          · simp only; rw [k2, hr, hkey]
          · simp only; rw [k2]; exact hrx
        obtain ⟨q, q1, q2⟩ := hh.late j _ hpj t ht' hrt
        have a := (h.mem j q q1)
        have b := hx.2 _ (textAt_mem T j q.2 a.1)
        rw [← a.2, hr, ← hkey] at b
        simp only at q2
        omega
      · rw [hr, ← hkey, ← hfirst t ht' hrt]
        exact ht'

/-- If a round fails, the last class of a text has a line that is not the first of its hash. -/
theorem hist_fail (T : Bool → List Str) (R : Str → Prop) (id : Nat) (st : Classes) (h : Classified T id st) (hh : Hist T R st)
    (hi : Bool) (key i : Nat) (hn : nextClass st = some (hi, key, i)) (j : Bool) (hall : ∀ p ∈ st.hash j, p.1 = key) (p : Nat × Nat) (hp : p ∈ st.hash j)
    (hne : (T hi).getD i [] ≠ textAt T j p.2) : ∃ j x, Highest (T j) x ∧ ¬ IsFirst T (hashString x) x := by
  obtain ⟨n1, n2, n3⟩ := nextClass_some st h.sorted hi key i hn
  have hkey : key = hashString ((T hi).getD i []) := (h.mem hi (key, i) n1).2
  have hpm := h.mem j p hp
  have hpk := hall p hp
  refine ⟨j, textAt T j p.2, ⟨textAt_mem T j p.2 hpm.1, fun y hy => ?_⟩, fun hf => ?_⟩
  · obtain ⟨k, k1, k2⟩ := mem_textAt T j y hy
    rw [← hpm.2, hpk]
    by_cases hr : R y
    · have := hh.low y hr j p hp
      omega
    · have : (hashString y, k) ∈ st.hash j := by
        refine (hh.tables j _).mpr ⟨(fullTable_mem T j _).mpr ⟨k1, ?_⟩, ?_⟩
        · simp only; rw [k2]
        · simp only; rw [k2]; exact hr
      have := hall _ this
      simp only at this
      omega
  · rw [← hpm.2] at hf
    by_cases hr : R (textAt T j p.2)
    · obtain ⟨q, q1, q2⟩ := hh.late j p hp _ hf hr
      have := hall q q1
      omega
    · rw [hpk] at hf
      exact hne (pick_first T R st hh h.sorted hi key i hn _ hf hr)

theorem classify_exact (T : Bool → List Str) : ∀ (steps id : Nat) (st : Classes) (R : Str → Prop), Classified T id st → Hist T R st →
    (st.hash false).length + (st.hash true).length < steps →
    ((∃ st', classify T steps id st = .ok st') ∧ ∀ j x, Highest (T j) x → IsFirst T (hashString x) x) ∨
    (classify T steps id st = .error (.ub "dereferencing the end of the hash table") ∧ ∃ j x, Highest (T j) x ∧ ¬ IsFirst T (hashString x) x) := by
  intro steps
  induction steps with
  | zero => intro id st R _ _ h; omega
  | succ steps ih =>
    intro id st R h hh hlen
    rw [classify]
    cases hn : nextClass st with
    | none =>
      left
      refine ⟨⟨st, rfl⟩, fun j x hx => hh.tops j x hx ?_⟩
      refine Classical.byContradiction (fun hr => ?_)
      obtain ⟨k, k1, k2⟩ := mem_textAt T j x hx.1
      have : (hashString x, k) ∈ st.hash j := by
        refine (hh.tables j _).mpr ⟨(fullTable_mem T j _).mpr ⟨k1, ?_⟩, ?_⟩
        · simp only; rw [k2]
        · simp only; rw [k2]; exact hr
      rw [nextClass_none st hn j] at this
      cases this
    | some v =>
      obtain ⟨hi, key, i⟩ := v
      simp only
      rcases round_exact T id st h hi key i hn with ⟨st', c2, c3, ⟨p, hp, c4⟩, c5⟩ | ⟨c1, j, c2, p, c3, c4⟩
      · simp only [bind, Except.bind, c2]
        refine ih (id + 1) st' _ (classified_next T id st st' _ h c3) (hist_next T R id st st' h hh hi key i hn c3 c5) ?_
        have le : ∀ j, (st'.hash j).length ≤ (st.hash j).length := fun j => by rw [(c3 j).1]; exact List.length_filter_le _ _
        have lt : (st'.hash hi).length < (st.hash hi).length := by
          rw [(c3 hi).1]
          exact List.length_filter_lt_length_iff_exists.mpr ⟨p, hp, by simp [← c4]⟩
        have a := le false
        have b := le true
        cases hi <;> omega
      · right
        refine ⟨?_, hist_fail T R id st h hh hi key i hn j c2 p c3 c4⟩
        simp only [bind, Except.bind, c1]

theorem classified_start (T : Bool → List Str) : Classified T 1 ⟨fun j => fillTable (T j) 0 [], fun _ _ => none⟩ := by
  refine ⟨fun j => fillTable_sorted _ _ _ List.Pairwise.nil, fun j p hp => (fullTable_mem T j p).mp hp, fun j i hi _ => ?_, ?_, ?_, ?_⟩
  · exact ⟨(hashString (textAt T j i), i), (fullTable_mem T j _).mpr ⟨hi, rfl⟩, rfl⟩
  · intro j i n h; cases h
  · intro j i k l n m h; cases h
  · intro j i n k h; cases h

theorem hist_start (T : Bool → List Str) : Hist T (fun _ => False) ⟨fun j => fillTable (T j) 0 [], fun _ _ => none⟩ := by
  refine ⟨fun j p => ?_, fun j => fullTable_before T j, ?_, ?_, ?_⟩
  · simp only [not_false_eq_true, and_true]; rfl
  · intro s h; cases h
  · intro j p _ t _ h; cases h
  · intro j x _ h; cases h

theorem classify_top (s0 s1 : Str) (steps : Nat) (hs : size s0 s1 < steps) :
    ((∃ st, classify (both (split s0) (split s1)) steps 1 ⟨fun j => fillTable (both (split s0) (split s1) j) 0 [], fun _ _ => none⟩ = .ok st) ∧ TopClear s0 s1) ∨
    (classify (both (split s0) (split s1)) steps 1 ⟨fun j => fillTable (both (split s0) (split s1) j) 0 [], fun _ _ => none⟩ =
      .error (.ub "dereferencing the end of the hash table") ∧ ¬ TopClear s0 s1) := by
  rcases classify_exact (both (split s0) (split s1)) steps 1 _ _ (classified_start _) (hist_start _)
    (by simp only [fillTable_length, both]; simpa [size] using hs) with ⟨c1, c2⟩ | ⟨c1, j, x, c2, c3⟩
  · exact Or.inl ⟨c1, fun x hx => hx.elim (fun h => c2 false x h) (fun h => c2 true x h)⟩
  · refine Or.inr ⟨c1, fun hc => c3 (hc x ?_)⟩
    cases j
    · exact Or.inl c2
    · exact Or.inr c2

theorem collectIds_err (v : Nat → Option Nat) : ∀ (n i : Nat) (r : Fault), collectIds v n i = .error r → r = .ub "indeterminate line number" := by
  intro n
  induction n with
  | zero => intro i r h; cases h
  | succ n ih =>
    intro i r h
    rw [collectIds] at h
    cases hv : v i with
    | none =>
      rw [hv] at h
      simp only [Except.error.injEq] at h
      exact h.symm
    | some m =>
      rw [hv] at h
      rcases hc : collectIds v n (i + 1) with e | l
      · simp only [hc, bind, Except.bind, Except.error.injEq] at h
        subst h
        exact ih _ _ hc
      · simp only [hc, bind, Except.bind] at h
        cases h

/-- Numbering the lines reads past the end of a table exactly if, in one of the texts, a line of the greatest hash of that text is not the
first line of its hash. -/
theorem buildLines_end (steps : Nat) (s0 s1 : Str) (hs : size s0 s1 < steps) :
    buildLines steps s0 s1 = .error (.ub "dereferencing the end of the hash table") ↔ ¬ TopClear s0 s1 := by
  rcases classify_top s0 s1 steps hs with ⟨⟨st, c1⟩, c2⟩ | ⟨c1, c2⟩
  · have c1' : classify (fun j => if j = true then split s1 else split s0) steps 1
        ⟨fun j => fillTable (if j = true then split s1 else split s0) 0 [], fun _ _ => none⟩ = .ok st := c1
    refine ⟨fun h => ?_, fun h => absurd c2 h⟩
    exfalso
    simp only [buildLines, linesOf_ok, bind, Except.bind, c1'] at h
    rcases h0 : collectIds (st.vec false) (split s0).length 0 with e | v0
    · have := collectIds_err _ _ _ _ h0
      subst this
      simp only [h0, Except.error.injEq, Fault.ub.injEq] at h
      exact absurd h (by decide)
    · rcases h1 : collectIds (st.vec true) (split s1).length 0 with e | v1
      · have := collectIds_err _ _ _ _ h1
        subst this
        simp only [h0, h1, Except.error.injEq, Fault.ub.injEq] at h
        exact absurd h (by decide)
      · simp only [h0, h1] at h
        cases h
  · have c1' : classify (fun j => if j = true then split s1 else split s0) steps 1
        ⟨fun j => fillTable (if j = true then split s1 else split s0) 0 [], fun _ _ => none⟩ = .error (.ub "dereferencing the end of the hash table") := c1
    refine ⟨fun _ => c2, fun _ => ?_⟩
    simp only [buildLines, linesOf_ok, bind, Except.bind, c1']

end Verif.Diff
