import Verif.Life.BlockLemmas

/-!
# The blocks of a program
-/

namespace Verif.Life
open Spec Verif.Measurement Verif.Base64

/-- The blocks of a place. -/
def blocks : Option Thing → List Nat
  | some (.data s) => s.block.toList
  | _ => []

/-- All blocks. -/
def held (l : List (Option Thing)) : List Nat := l.flatMap blocks

theorem held_set : ∀ (l : List (Option Thing)) (i : Nat) (v : Option Thing), l[i]? = some v →
    ∃ o, (held l).Perm (blocks v ++ o) ∧ ∀ x, (held (l.set i x)).Perm (blocks x ++ o) := by
  intro l
  induction l with
  | nil => intro i v h; simp at h
  | cons a l ih =>
    intro i v h
    cases i with
    | zero =>
      simp only [List.getElem?_cons_zero, Option.some.injEq] at h
      subst h
      exact ⟨held l, .refl _, fun x => .refl _⟩
    | succ i =>
      obtain ⟨o, h1, h2⟩ := ih i v (by simpa using h)
      have hc : ∀ y z w : List Nat, (y ++ (z ++ w)).Perm (z ++ (y ++ w)) := by
        intro y z w
        rw [← List.append_assoc, ← List.append_assoc]
        exact List.perm_append_comm.append_right w
      refine ⟨blocks a ++ o, ?_, fun x => ?_⟩
      · exact (List.Perm.append_left (blocks a) h1).trans (hc _ _ _)
      · exact (List.Perm.append_left (blocks a) (h2 x)).trans (hc _ _ _)

theorem held_set2 (l : List (Option Thing)) (i j : Nat) (v w : Option Thing) (hij : i ≠ j) (hi : l[i]? = some v) (hj : l[j]? = some w) :
    ∃ o, (held l).Perm (blocks v ++ (blocks w ++ o)) ∧ ∀ x y, (held ((l.set i x).set j y)).Perm (blocks x ++ (blocks y ++ o)) := by
  have li : i < l.length := by
    by_contra h
    rw [List.getElem?_eq_none (by omega)] at hi
    cases hi
  obtain ⟨o, h1, h2⟩ := held_set (l.set i none) j w (by rw [List.getElem?_set_ne hij]; exact hj)
  have key : ∀ x y, (held ((l.set i x).set j y)).Perm (blocks x ++ (blocks y ++ o)) := by
    intro x y
    obtain ⟨o', k1, k2⟩ := held_set ((l.set i none).set j y) i none (by rw [List.getElem?_set_ne (Ne.symm hij), List.getElem?_set_self li])
    have e : ((l.set i none).set j y).set i x = (l.set i x).set j y := by
      rw [List.set_comm _ _ (Ne.symm hij), List.set_set]
    have := k2 x
    rw [e] at this
    exact this.trans (List.Perm.append_left _ ((k1.symm).trans (h2 y)))
  refine ⟨o, ?_, key⟩
  have := key v w
  have e : (l.set i v).set j w = l := by
    have e1 : l.set i v = l := by
      apply List.ext_getElem? 
      intro n
      by_cases hn : i = n
      · subst hn; rw [List.getElem?_set_self li, hi]
      · rw [List.getElem?_set_ne hn]
    rw [e1]
    apply List.ext_getElem?
    intro n
    by_cases hn : j = n
    · subst hn
      rw [List.getElem?_set_self, hj]
      by_contra h
      rw [List.getElem?_eq_none (by omega)] at hj
      cases hj
    · rw [List.getElem?_set_ne hn]
  rwa [e] at this

theorem Pool.get_eq {p : Pool} {i : Nat} {t : Thing} (h : p.get i = some t) : p.things[i]? = some (some t) := by
  rw [Pool.get] at h
  cases e : p.things[i]? with
  | none => rw [e] at h; cases h
  | some v => rw [e] at h; simp only [Option.join] at h; exact congrArg some h

/-- The heap and all blocks. -/
def Pool.cfg (p : Pool) : C := p.heap.cfg (held p.things)

/-- There is a block exactly when there is data. -/
def Pool.Good (p : Pool) : Prop := ∀ i s, p.get i = some (.data s) → s.Good

theorem Pool.get_put (p : Pool) (h : Heap) (i j : Nat) (t : Option Thing) : (p.put h i t).get j = if i = j ∧ i < p.things.length then t else p.get j := by
  simp only [Pool.get, Pool.put]
  by_cases hij : i = j
  · subst hij
    by_cases hl : i < p.things.length
    · rw [List.getElem?_set_self hl, if_pos ⟨rfl, hl⟩]; rfl
    · rw [if_neg (fun h => hl h.2), List.getElem?_eq_none (by simp; omega), List.getElem?_eq_none (by omega)]
  · rw [List.getElem?_set_ne hij, if_neg (fun h => hij h.1)]

theorem Pool.lt_of_get {p : Pool} {i : Nat} {t : Thing} (h : p.get i = some t) : i < p.things.length := by
  have := Pool.get_eq h
  by_contra hl
  rw [List.getElem?_eq_none (by omega)] at this
  cases this

theorem Pool.get_put_self {p : Pool} {h : Heap} {i : Nat} {t : Option Thing} {t' : Thing} (hi : p.get i = some t') : (p.put h i t).get i = t := by
  rw [Pool.get_put, if_pos ⟨rfl, Pool.lt_of_get hi⟩]

theorem Pool.get_put_ne {p : Pool} {h : Heap} {i j : Nat} {t : Option Thing} (hij : i ≠ j) : (p.put h i t).get j = p.get j := by
  rw [Pool.get_put, if_neg fun h => hij h.1]

theorem Pool.good_put {p : Pool} (g : p.Good) (h : Heap) (i : Nat) (t : Option Thing) (ht : ∀ s, t = some (.data s) → s.Good) : (p.put h i t).Good := by
  intro j s hj
  rw [Pool.get_put] at hj
  split at hj
  · exact ht s hj
  · exact g j s hj

theorem Pool.good_putData {p : Pool} (g : p.Good) (h : Heap) (i : Nat) (s : Slot) (hs : s.Good) : (p.putData h i s).Good :=
  p.good_put g h i _ fun s' e => by injection e with e; injection e with e; exact e ▸ hs

theorem Pool.good_append {p : Pool} (g : p.Good) (t : Thing) (ht : ∀ s, t = .data s → s.Good) : Pool.Good ⟨p.heap, p.things ++ [some t]⟩ := by
  intro j s hj
  have := Pool.get_eq hj
  simp only at this
  by_cases hl : j < p.things.length
  · rw [List.getElem?_append_left hl] at this
    exact g j s (by rw [Pool.get, this]; rfl)
  · rw [List.getElem?_append_right (by omega)] at this
    rcases Nat.eq_zero_or_pos (j - p.things.length) with e | e
    · rw [e] at this
      simp only [List.getElem?_cons_zero, Option.some.injEq] at this
      exact ht s this
    · rw [List.getElem?_eq_none (by simp; omega)] at this
      cases this

/-- One data measurement is changed. -/
theorem Pool.step_put {T : Prop} {p : Pool} {i : Nat} {s : Slot} {h : Heap} {t : Option Thing} (hi : p.get i = some (.data s))
    (hs : ∀ o, Step T (p.heap.cfg (s.block.toList ++ o)) (h.cfg (blocks t ++ o))) : Step T p.cfg (p.put h i t).cfg := by
  obtain ⟨o, h1, h2⟩ := held_set p.things i _ (Pool.get_eq hi)
  exact (((step_perm _ _ h1).trans (hs o)).trans (step_perm _ _ (h2 t).symm)).imp fun x => ⟨⟨trivial, x⟩, trivial⟩

theorem Pool.step_putData {p : Pool} {i : Nat} {s s' : Slot} {h : Heap} (hi : p.get i = some (.data s)) (hc : Call p.heap s h s') :
    Step True p.cfg (p.putData h i s').cfg := Pool.step_put hi hc.step

/-- A file is changed. -/
theorem Pool.step_putFile {p : Pool} {i : Nat} {f : FileM} {t : Option Thing} (hi : p.get i = some (.file f)) (ht : blocks t = []) :
    Step True p.cfg (p.put p.heap i t).cfg := by
  obtain ⟨o, h1, h2⟩ := held_set p.things i _ (Pool.get_eq hi)
  have h2 := h2 t
  rw [ht] at h2
  exact step_perm _ _ (h1.trans h2.symm)

theorem Pool.step_put2 {T : Prop} {p : Pool} {i j : Nat} {s t s' t' : Slot} {h h' : Heap} (hij : i ≠ j) (hi : p.get i = some (.data s)) (hj : p.get j = some (.data t))
    (hs : ∀ o, Step T (p.heap.cfg (s.block.toList ++ (t.block.toList ++ o))) (h.cfg (s'.block.toList ++ (t'.block.toList ++ o)))) :
    Step T p.cfg ((p.putData h' i s').putData h j t').cfg := by
  obtain ⟨o, h1, h2⟩ := held_set2 p.things i j _ _ hij (Pool.get_eq hi) (Pool.get_eq hj)
  exact (((step_perm _ _ h1).trans (hs o)).trans (step_perm _ _ (h2 (some (.data s')) (some (.data t'))).symm)).imp fun x => ⟨⟨trivial, x⟩, trivial⟩

/-- A new measurement has no block. -/
theorem Pool.step_append (p : Pool) (t : Thing) (ht : blocks (some t) = []) : Step True p.cfg (Pool.cfg ⟨p.heap, p.things ++ [some t]⟩) := by
  have e : held (p.things ++ [some t]) = held p.things := by simp [held, ht]
  rw [Pool.cfg, Pool.cfg, e]
  exact .refl _ _

/-- No block is lost by the call: no block is assigned over, and no comparison with a file ends by an exception. -/
def KeepsBlocks (p : Pool) (op : Op) : Prop :=
  (∀ i j s t, op = .assign i j → p.get i = some (.data s) → p.get j = some (.data t) → s.d.kind = t.d.kind → s.block = none) ∧
    (∀ files i j g, op = .compare files i j → (p.get i = some (.file g) ∨ p.get j = some (.file g)) → (p.step op).2.isOk = true)

theorem Except.isOk_map {α β : Type} (e : Except Fault α) (f : α → β) : (e.map f).isOk = e.isOk := by cases e <;> rfl

theorem Slot.assign_step (h : Heap) (s : Slot) (d : DataM) (o : List Nat) : Step (s.block = none) (h.cfg (s.block.toList ++ o)) (h.cfg ((⟨d, none⟩ : Slot).block.toList ++ o)) := by
  refine (step_drop _ _ (h' := o) (List.sublist_append_right _ _)).imp fun hb => ?_
  simp [hb]

/-- Every call but `SetContentAsData` from a measurement's own data. -/
theorem Pool.step_step (p : Pool) (op : Op) (ho : ∀ i, op ≠ .transfer i i) (hg : p.Good) : Step (KeepsBlocks p op) p.cfg (p.step op).1.cfg ∧ (p.step op).1.Good := by
  have triv : ∀ {q : Pool}, Step True p.cfg q.cfg → Step (KeepsBlocks p op) p.cfg q.cfg := fun h => h.imp fun _ => trivial
  have stay : Step (KeepsBlocks p op) p.cfg p.cfg ∧ p.Good := ⟨triv (.refl _ _), hg⟩
  have one : ∀ {i : Nat} {s s' : Slot} {h : Heap}, p.get i = some (.data s) → Call p.heap s h s' →
      Step (KeepsBlocks p op) p.cfg (p.putData h i s').cfg ∧ (p.putData h i s').Good :=
    fun hi hc => ⟨triv (Pool.step_putData hi hc), p.good_putData hg _ _ _ (hc.good (hg _ _ hi))⟩
  cases op with
  | new m =>
    cases m with
    | data d => exact ⟨triv (p.step_append _ rfl), p.good_append hg _ fun s e => by injection e with e; subst e; rfl⟩
    | file f => exact ⟨triv (p.step_append _ rfl), p.good_append hg _ fun s e => by cases e⟩
  | copy i =>
    simp only [Pool.step]
    split
    · next t ht =>
      cases t with
      | data s => exact ⟨triv (p.step_append _ rfl), p.good_append hg _ fun s e => by injection e with e; subst e; rfl⟩
      | file f => exact ⟨triv (p.step_append _ rfl), p.good_append hg _ fun s e => by cases e⟩
    · exact stay
  | assign i j =>
    simp only [Pool.step]
    split
    · next s t hs ht =>
      simp only
      cases s with
      | data s =>
        cases t with
        | data t =>
          simp only [Pool.assign]
          split
          · next hkind =>
            refine ⟨(Pool.step_put hs (s.assign_step p.heap (s.d.assign t.d))).imp fun hk => hk.1 i j s t rfl hs ht hkind, p.good_putData hg _ _ _ rfl⟩
          · exact stay
        | file g => exact stay
      | file f =>
        cases t with
        | data t => exact stay
        | file g => exact ⟨triv (Pool.step_putFile hs rfl), p.good_put hg _ _ _ fun s e => by injection e with e; cases e⟩
    · exact stay
  | setName i n =>
    simp only [Pool.step]
    split
    · next t ht =>
      cases t with
      | data s => exact one ht ⟨fun _ => .refl _ _, id⟩
      | file f => exact ⟨triv (Pool.step_putFile ht rfl), p.good_put hg _ _ _ fun s e => by injection e with e; cases e⟩
    · exact stay
  | setContent i c =>
    simp only [Pool.step]
    split
    · next t ht =>
      cases t with
      | data s => exact one ht (s.setContent_call p.heap c)
      | file f => exact ⟨triv (Pool.step_putFile ht rfl), p.good_put hg _ _ _ fun s e => by injection e with e; cases e⟩
    · exact stay
  | setEncoding i e =>
    simp only [Pool.step]
    split
    · next s ht => exact one ht ⟨fun _ => .refl _ _, id⟩
    · exact stay
  | setCompression i e =>
    simp only [Pool.step]
    split
    · next s ht => exact one ht ⟨fun _ => .refl _ _, id⟩
    · exact stay
  | read i =>
    simp only [Pool.step]
    split
    · next s ht => exact one ht ((s.touch_call p.heap).trans (Slot.useOpt_call _ _))
    · exact stay
  | write i bytes =>
    simp only [Pool.step]
    split
    · next s ht =>
      exact ⟨triv (Pool.step_put ht fun o => s.setData_step p.heap none bytes o fun i hi => by cases hi), p.good_putData hg _ _ _ (s.setData_good _ _ _)⟩
    · exact stay
  | transfer i j =>
    have hij : i ≠ j := fun e => ho i (by rw [e])
    simp only [Pool.step]
    split
    · next s t hs ht =>
      simp only [Pool.transfer]
      have c1 := t.touch_call p.heap
      rcases e1 : t.touch p.heap with ⟨h1, t1, e | u⟩ <;> rw [e1] at c1
      · exact one ht c1
      · simp only at c1 ⊢
        have c2 := c1.trans (t1.touch_call h1)
        rcases e2 : t1.touch h1 with ⟨h2, t2, e | u⟩ <;> rw [e2] at c2
        · exact one ht c2
        · simp only at c2 ⊢
          rw [if_neg hij]
          refine ⟨triv (Pool.step_put2 (Ne.symm hij) ht hs fun o => ?_), Pool.good_putData (p.good_putData hg _ _ _ (c2.good (hg _ _ ht))) _ _ _ (s.setData_good _ _ _)⟩
          refine (c2.step _).trans' ?_
          have pc : ∀ x : List Nat, (t2.block.toList ++ (x ++ o)).Perm (x ++ (t2.block.toList ++ o)) := by
            intro x
            rw [← List.append_assoc, ← List.append_assoc]
            exact List.perm_append_comm.append_right o
          have hd := s.setData_step h2 t2.block (bytesOf t2.cells) (t2.block.toList ++ o) fun k hk => by simp [hk]
          exact ((step_perm _ _ (pc _)).trans' hd).trans' (step_perm _ _ (pc _).symm)
    · exact stay
  | compare files i j =>
    have hk : ∀ g, (p.get i = some (.file g) ∨ p.get j = some (.file g)) → KeepsBlocks p (.compare files i j) → (p.step (.compare files i j)).2.isOk = true :=
      fun g hf hk => hk.2 files i j g rfl hf
    simp only [Pool.step] at hk ⊢
    split
    · next s t hs ht =>
      simp only [hs, ht, Except.isOk_map] at hk ⊢
      cases s with
      | data s =>
        cases t with
        | data t =>
          simp only [Pool.compare]
          split
          · exact one hs (s.compareSelf_call p.heap)
          · next hij =>
            have c := s.compare_call p.heap t
            exact ⟨triv (Pool.step_put2 hij hs ht c.step), Pool.good_putData (p.good_putData hg _ _ _ (c.left (hg _ _ hs))) _ _ _ (c.right (hg _ _ ht))⟩
        | file g =>
          exact ⟨(Pool.step_put hs fun o => (fileVsData_step p.heap files g s o).1).imp (hk g (Or.inr rfl)), p.good_putData hg _ _ _ ((fileVsData_step p.heap files g s []).2 (hg _ _ hs))⟩
      | file f =>
        cases t with
        | data t =>
          exact ⟨(Pool.step_put ht fun o => (fileVsData_step p.heap files f t o).1).imp (hk f (Or.inl rfl)), p.good_putData hg _ _ _ ((fileVsData_step p.heap files f t []).2 (hg _ _ ht))⟩
        | file g => exact ⟨(fileVsFile_step p.heap files f g _).imp (hk f (Or.inl rfl)), hg⟩
    · exact stay
  | destroy i =>
    simp only [Pool.step]
    split
    · next t ht =>
      cases t with
      | data s =>
        refine ⟨triv (Pool.step_put ht fun o => ?_), p.good_put hg _ _ _ fun s e => by cases e⟩
        exact p.heap.freeOpt_step s.block o
      | file f => exact ⟨triv (Pool.step_putFile ht rfl), p.good_put hg _ _ _ fun s e => by cases e⟩
    · exact stay

end Verif.Life
