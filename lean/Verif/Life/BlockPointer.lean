import Verif.Life.BlockLoss

/-!
# C99: how long a pointer to data may be used
-/

namespace Verif.Life
open Spec Verif.Measurement Verif.Base64

theorem Slot.touch_block {h : Heap} {s : Slot} {b : Nat} (hb : s.block = some b) : s.touch h = (h, s, .ok ()) := by rw [Slot.touch, hb]

theorem Slot.compare_left {h : Heap} {s : Slot} {b : Nat} (t : Slot) (hb : s.block = some b) : (s.compare h t).2.1 = s := by
  rw [Slot.compare]
  split
  · rw [Slot.touch_block hb]
    simp only
    rcases e2 : t.touch h with ⟨h2, t1, e | u⟩
    · rfl
    · simp only
      split
      · rcases e3 : t1.touch h2 with ⟨h3, t2, e | u⟩
        · rfl
        · simp only
          rw [Slot.touch_block hb]
      · rfl
  · rfl

theorem Slot.compare_right {h : Heap} {t : Slot} {b : Nat} (s : Slot) (hb : t.block = some b) : (s.compare h t).2.2.1 = t := by
  rw [Slot.compare]
  split
  · rcases e2 : s.touch h with ⟨h2, s1, e | u⟩
    · rfl
    · simp only
      rw [Slot.touch_block hb]
      simp only
      split
      · rw [Slot.touch_block hb]
        simp only
        rcases e3 : s1.touch h2 with ⟨h3, s2, e | u⟩ <;> rfl
      · rfl
  · rfl

theorem Slot.compareSelf_block {h : Heap} {s : Slot} {b : Nat} (hb : s.block = some b) : (s.compareSelf h).2.1 = s := by
  rw [Slot.compareSelf, Slot.touch_block hb]
  simp only
  rw [Slot.touch_block hb]

theorem fileVsData_block {h : Heap} {s : Slot} {b : Nat} (files : Files) (f : FileM) (hb : s.block = some b) : (fileVsData h files f s).2.1 = s := by
  rw [fileVsData]
  split
  · rfl
  · rcases hl : loadFile h files f with ⟨hp, l⟩
    simp only
    have hc := Slot.compare_left (h := hp.add (.use l.obj)) l.slot hb
    rcases hc' : s.compare (hp.add (.use l.obj)) l.slot with ⟨h4, s', t', e | v⟩ <;> rw [hc'] at hc <;> exact hc

theorem Pool.get_append {p : Pool} {i : Nat} {t u : Thing} (h : p.get i = some t) : Pool.get ⟨p.heap, p.things ++ [some u]⟩ i = some t := by
  have hl := Pool.lt_of_get h
  rw [Pool.get] at h ⊢
  simp only
  rw [List.getElem?_append_left hl]
  exact h

/-- The block and the bytes of a measurement stay. -/
theorem Pool.step_keeps (p : Pool) (op : Op) (i : Nat) (s : Slot) (b : Nat) (hs : p.get i = some (.data s)) (hb : s.block = some b) (he : ¬ Ends i op)
    (ha : ∀ j, op ≠ .assign i j) : ∃ s', (p.step op).1.get i = some (.data s') ∧ s'.block = some b ∧ s'.d.data = s.d.data := by
  have stay : ∃ s', p.get i = some (.data s') ∧ s'.block = some b ∧ s'.d.data = s.d.data := ⟨s, hs, hb, rfl⟩
  have other : ∀ {h : Heap} {k : Nat} {t : Option Thing}, k ≠ i → ∃ s', (p.put h k t).get i = some (.data s') ∧ s'.block = some b ∧ s'.d.data = s.d.data :=
    fun hk => ⟨s, (Pool.get_put_ne hk).trans hs, hb, rfl⟩
  have same : ∀ {h : Heap} {k : Nat} {s1 : Slot}, (k = i → s1.block = some b ∧ s1.d.data = s.d.data) →
      ∃ s', (p.putData h k s1).get i = some (.data s') ∧ s'.block = some b ∧ s'.d.data = s.d.data := by
    intro h k s1 hk
    by_cases hki : k = i
    · subst hki
      exact ⟨s1, Pool.get_put_self hs, hk rfl⟩
    · exact other hki
  have uniq : ∀ {k : Nat} {t : Slot}, p.get k = some (.data t) → k = i → t = s := by
    intro k t ht hk
    rw [hk, hs] at ht
    injection ht with ht
    injection ht with ht
    exact ht.symm
  cases op with
  | new m =>
    cases m <;> exact ⟨s, Pool.get_append hs, hb, rfl⟩
  | copy k =>
    simp only [Pool.step]
    split
    · next t _ => cases t <;> exact ⟨s, Pool.get_append hs, hb, rfl⟩
    · exact stay
  | assign k j =>
    have hk : k ≠ i := fun e => ha j (by rw [e])
    simp only [Pool.step]
    split
    · next x y _ _ =>
      cases x <;> cases y <;> simp only [Pool.assign]
      · split
        · exact other hk
        · exact stay
      · exact stay
      · exact stay
      · exact other hk
    · exact stay
  | setName k n =>
    simp only [Pool.step]
    split
    · next t ht =>
      cases t with
      | data t => exact same fun hk => by rw [uniq ht hk]; exact ⟨hb, rfl⟩
      | file f =>
        by_cases hk : k = i
        · rw [hk, hs] at ht; cases ht
        · exact other hk
    · exact stay
  | setContent k c =>
    have hk : k ≠ i := he
    simp only [Pool.step]
    split
    · next t ht => cases t <;> exact other hk
    · exact stay
  | setEncoding k e =>
    simp only [Pool.step]
    split
    · next t ht => exact same fun hk => by rw [uniq ht hk]; exact ⟨hb, rfl⟩
    · exact stay
  | setCompression k e =>
    simp only [Pool.step]
    split
    · next t ht => exact same fun hk => by rw [uniq ht hk]; exact ⟨hb, rfl⟩
    · exact stay
  | read k =>
    simp only [Pool.step]
    split
    · next t ht =>
      refine same fun hk => ?_
      rw [uniq ht hk, Slot.touch_block hb]
      exact ⟨hb, rfl⟩
    · exact stay
  | write k bytes =>
    have hk : k ≠ i := he
    simp only [Pool.step]
    split
    · exact other hk
    · exact stay
  | transfer k j =>
    have hk : k ≠ i := he
    simp only [Pool.step]
    split
    · next x t hx ht =>
      simp only [Pool.transfer]
      have hj : j = i → t.touch p.heap = (p.heap, s, .ok ()) := fun hj => by rw [uniq ht hj, Slot.touch_block hb]
      rcases e1 : t.touch p.heap with ⟨h1, t1, e | u⟩
      · refine same fun hj' => ?_
        rw [hj hj'] at e1
        cases e1
      · simp only
        have ht1 : j = i → t1 = s := fun hj' => by
          rw [hj hj'] at e1
          injection e1 with _ e1
          injection e1 with e1
          exact e1.symm
        rcases e2 : t1.touch h1 with ⟨h2, t2, e | u⟩
        · refine same fun hj' => ?_
          rw [ht1 hj', Slot.touch_block hb] at e2
          cases e2
        · simp only
          have ht2 : j = i → t2 = s := fun hj' => by
            rw [ht1 hj', Slot.touch_block hb] at e2
            injection e2 with _ e2
            injection e2 with e2
            exact e2.symm
          obtain ⟨s', g1, g2, g3⟩ := same (h := h2) (k := j) (s1 := t2) fun hj' => by rw [ht2 hj']; exact ⟨hb, rfl⟩
          exact ⟨s', (Pool.get_put_ne hk).trans g1, g2, g3⟩
    · exact stay
  | compare files k j =>
    simp only [Pool.step]
    split
    · next x y hx hy =>
      cases x with
      | data x =>
        cases y with
        | data y =>
          simp only [Pool.compare]
          split
          · refine same fun hk => ?_
            rw [uniq hx hk, Slot.compareSelf_block hb]
            exact ⟨hb, rfl⟩
          · next hkj =>
            by_cases hj : j = i
            · refine ⟨(x.compare p.heap y).2.2.1, ?_, ?_⟩
              · rw [← hj, Pool.putData, Pool.get_put, if_pos]
                refine ⟨rfl, ?_⟩
                have := Pool.lt_of_get hy
                simp only [Pool.putData, Pool.put, List.length_set]
                exact this
              · have hy' := uniq hy hj
                subst hy'
                rw [Slot.compare_right x hb]
                exact ⟨hb, rfl⟩
            · obtain ⟨s', g1, g2, g3⟩ := same (h := (x.compare p.heap y).1) (k := k) (s1 := (x.compare p.heap y).2.1) fun hk => by
                have hx' := uniq hx hk
                subst hx'
                rw [Slot.compare_left y hb]
                exact ⟨hb, rfl⟩
              exact ⟨s', (Pool.get_put_ne hj).trans g1, g2, g3⟩
        | file g =>
          refine same fun hk => ?_
          rw [uniq hx hk, fileVsData_block files g hb]
          exact ⟨hb, rfl⟩
      | file f =>
        cases y with
        | data y =>
          refine same fun hk => ?_
          rw [uniq hy hk, fileVsData_block files f hb]
          exact ⟨hb, rfl⟩
        | file g => exact stay
    · exact stay
  | destroy k =>
    have hk : k ≠ i := he
    simp only [Pool.step]
    split
    · next t ht => cases t <;> exact other hk
    · exact stay

/-- Nobody will free it. -/
theorem Pool.run_keeps (later : List Op) (i b : Nat) : ∀ p : Pool, p.Good → Inv p.cfg → ProperFrom p.values later → (∀ op ∈ later, ¬ Ends i op) →
    ((∃ s, p.get i = some (.data s) ∧ s.block = some b) ∨ (Leaked p.cfg.log b ∧ b ∉ p.cfg.held)) → Leaked (p.run later).heap.log b := by
  induction later with
  | nil =>
    intro p _ hi _ _ h
    rcases h with ⟨s, hs, hb⟩ | ⟨h, -⟩
    · exact hi.live b (mem_held hs hb)
    · exact h
  | cons op later ih =>
    intro p hg hi hp he h
    have e := congrArg Prod.fst (p.step_values op hg)
    simp only at e
    have hst := p.step_any op hg hp.1
    refine ih (p.step op).1 (p.step_good op hg) (hst.inv hi) (by rw [e]; exact hp.2) (fun o ho => he o (List.mem_cons_of_mem _ ho)) ?_
    rcases h with ⟨s, hs, hb⟩ | ⟨h1, h2⟩
    · by_cases ha : ∃ j, op = .assign i j
      · obtain ⟨j, rfl⟩ := ha
        simp only [Pool.step, hs]
        cases hj : p.get j with
        | none => exact Or.inl ⟨s, hs, hb⟩
        | some t =>
          cases t with
          | file g => exact Or.inl ⟨s, hs, hb⟩
          | data t =>
            simp only [Pool.assign]
            split
            · right
              obtain ⟨o, h1, h2⟩ := held_set p.things i _ (Pool.get_eq hs)
              have h2 := h2 (some (.data ⟨s.d.assign t.d, none⟩))
              simp only [blocks, hb, Option.toList, List.cons_append, List.nil_append] at h1 h2
              refine ⟨hi.live b (mem_held hs hb), fun hm => ?_⟩
              exact (List.nodup_cons.mp (h1.nodup_iff.mp hi.nodup)).1 (h2.mem_iff.mp hm)
            · exact Or.inl ⟨s, hs, hb⟩
      · obtain ⟨s', g1, g2, -⟩ := p.step_keeps op i s b hs hb (he op (List.mem_cons_self ..)) fun j ej => ha ⟨j, ej⟩
        exact Or.inl ⟨s', g1, g2⟩
    · exact Or.inr (hst.keep hi b h1 h2)

/-- **C99, how long a pointer may be used.** Memory `GetContentAsData` returned a pointer to stays allocated as long as the measurement is not destroyed and neither
`SetContent` nor `SetContentAsData` is called for it, whatever else is done; and as long as it is not assigned to either the bytes stay the same. -/
theorem C99_pointer_stays (ops later : List Op) (h : Proper (ops ++ later)) (i b : Nat) (hb : blockAt ops i = some b) (he : ∀ op ∈ later, ¬ Ends i op) :
    Leaked (memory (ops ++ later)) b ∧
    ((∀ j, .assign i j ∉ later) → blockAt (ops ++ later) i = some b ∧
      ∃ d d', (values ops).get i = some (.data d) ∧ (values (ops ++ later)).get i = some (.data d') ∧ d.data.isSome = true ∧ d'.data = d.data) := by
  obtain ⟨s, hs, hb⟩ := blockAt_some hb
  have hg := Pool.run_good ops {} Pool.empty_good
  have hi := run_inv ops (proper_prefix h)
  have hp := proper_suffix h
  rw [← values_eq] at hp
  refine ⟨?_, fun ha => ?_⟩
  · rw [memory, Pool.run_append]
    exact Pool.run_keeps later i b _ hg hi hp he (Or.inl ⟨s, hs, hb⟩)
  · have key : ∀ (later : List Op) (p : Pool) (s : Slot), p.Good → p.get i = some (.data s) → s.block = some b → (∀ op ∈ later, ¬ Ends i op) → (∀ j, .assign i j ∉ later) →
        ∃ s', (p.run later).get i = some (.data s') ∧ s'.block = some b ∧ s'.d.data = s.d.data := by
      intro later
      induction later with
      | nil => intro p s _ hs hb _ _; exact ⟨s, hs, hb, rfl⟩
      | cons op later ih =>
        intro p s hg hs hb he ha
        obtain ⟨s1, g1, g2, g3⟩ := p.step_keeps op i s b hs hb (he op (List.mem_cons_self ..)) fun j ej => ha j (by rw [ej]; exact List.mem_cons_self ..)
        obtain ⟨s2, k1, k2, k3⟩ := ih (p.step op).1 s1 (p.step_good op hg) g1 g2 (fun o ho => he o (List.mem_cons_of_mem _ ho)) fun j hj => ha j (List.mem_cons_of_mem _ hj)
        exact ⟨s2, k1, k2, k3.trans g3⟩
    obtain ⟨s', k1, k2, k3⟩ := key later _ s hg hs hb he ha
    refine ⟨?_, s.d, s'.d, ?_, ?_, ?_, k3⟩
    · rw [blockAt, Pool.run_append, k1]
      exact k2
    · rw [← values_eq, Pool.get_value hs]
      rfl
    · rw [← values_eq, Pool.run_append, Pool.get_value k1]
      rfl
    · rw [← hg i s hs, hb]
      rfl

/-- **C99, and no longer.** Each of these calls frees the memory: a pointer that was kept points to freed memory. -/
theorem C99_pointer_ends (ops : List Op) (i b : Nat) (hb : blockAt ops i = some b) (op : Op) (he : Ends i op) (ho : ∀ j, op ≠ .transfer i j) :
    .destroy b ∈ memory (ops ++ [op]) := by
  obtain ⟨s, hs, hb'⟩ := blockAt_some hb
  rw [memory, Pool.run_append]
  simp only [Pool.run]
  cases op with
  | setContent k c =>
    have hk : k = i := he
    subst hk
    simp [Pool.step, hs, Pool.setContent, Slot.setContent, Slot.delete, Pool.putData, Pool.put, hb', Heap.freeOpt, Heap.add]
  | write k bytes =>
    have hk : k = i := he
    subst hk
    simp only [Pool.step, hs, Pool.putData, Pool.put]
    have hp := s.grows_setData' (Pool.run {} ops).heap none bytes
    refine hp.subset ?_
    simp [hb', Heap.freeOpt, Heap.add, Heap.create, Heap.useOpt]
  | transfer k j =>
    have hk : k = i := he
    subst hk
    exact absurd rfl (ho j)
  | destroy k =>
    have hk : k = i := he
    subst hk
    simp [Pool.step, hs, Pool.destroy, Slot.delete, Pool.put, hb', Heap.freeOpt, Heap.add]
  | _ => exact absurd he id

/-- The same for `SetContentAsData` from another measurement, when reading that one succeeds. -/
theorem C99_pointer_ends_transfer (ops : List Op) (i j b : Nat) (hb : blockAt ops i = some b) (d d' : DataM) (cells : List Cell)
    (hd : (values ops).get j = some (.data d)) (hr : d.getData = (d', .ok cells)) : .destroy b ∈ memory (ops ++ [.transfer i j]) := by
  obtain ⟨s, hs, hb⟩ := blockAt_some hb
  rw [← values_eq] at hd
  obtain ⟨t, ht, rfl⟩ := Pool.get_data hd
  have hg := Pool.run_good ops {} Pool.empty_good
  rw [memory, Pool.run_append]
  simp only [Pool.run, Pool.step, hs, ht, Pool.transfer]
  rw [t.touch_data (Pool.run {} ops).heap (hg j t ht)] at hr
  rcases e1 : t.touch (Pool.run {} ops).heap with ⟨h1, t1, e | u⟩
  · rw [e1] at hr; cases hr
  · simp only
    rw [Slot.touch_again (hg j t ht) e1]
    simp only [Pool.putData, Pool.put]
    have hp := (if i = j then t1 else s).grows_setData' h1 t1.block (bytesOf t1.cells)
    refine hp.subset ?_
    have hbl : (if i = j then t1 else s).block = some b := by
      split
      · next hij =>
        subst hij
        rw [hs] at ht
        injection ht with ht
        injection ht with ht
        subst ht
        rw [Slot.touch_block hb] at e1
        injection e1 with _ e1
        injection e1 with e1
        rw [← e1]
        exact hb
      · exact hb
    rw [hbl]
    have hm : Ev.destroy b ∈ ((h1.freeOpt (some b)).create).log := by simp [Heap.freeOpt, Heap.add, Heap.create]
    exact (Heap.grows_useOpt _ t1.block).subset hm

end Verif.Life
