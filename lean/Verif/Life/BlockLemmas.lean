import Verif.Life.BlockModel
import Verif.Life.Lemmas

/-!
# Invariants of the blocks
-/

namespace Verif.Life
open Spec Verif.Measurement Verif.Base64

/-- The heap and the blocks somebody points to. -/
def Heap.cfg (h : Heap) (held : List Nat) : C := ⟨h.next, h.log, held⟩

/-- There is a block exactly when there is data. -/
def Slot.Good (s : Slot) : Prop := s.block.isSome = s.d.data.isSome

theorem Heap.useOpt_step (h : Heap) (p : Option Nat) (o : List Nat) (hp : ∀ i, p = some i → i ∈ o) : Step True (h.cfg o) ((h.useOpt p).cfg o) := by
  cases p with
  | none => exact .refl _ _
  | some i => exact step_use _ _ _ i (hp i rfl)

theorem Heap.freeOpt_step (h : Heap) (p : Option Nat) (o : List Nat) : Step True (h.cfg (p.toList ++ o)) ((h.freeOpt p).cfg o) := by
  cases p with
  | none => exact .refl _ _
  | some i => exact step_destroy _ _ _ i

theorem Heap.create_step (h : Heap) (o : List Nat) : Step True (h.cfg o) (h.create.cfg (h.next :: o)) := step_create _ _ _

/-- What a call on one measurement does. -/
structure Call (h : Heap) (s : Slot) (h' : Heap) (s' : Slot) : Prop where
  step : ∀ o, Step True (h.cfg (s.block.toList ++ o)) (h'.cfg (s'.block.toList ++ o))
  good : s.Good → s'.Good

theorem Call.trans {h h' h'' : Heap} {s s' s'' : Slot} (a : Call h s h' s') (b : Call h' s' h'' s'') : Call h s h'' s'' :=
  ⟨fun o => (a.step o).trans' (b.step o), fun g => b.good (a.good g)⟩

theorem Call.refl (h : Heap) (s : Slot) : Call h s h s := ⟨fun _ => .refl _ _, id⟩

theorem Slot.delete_call (h : Heap) (s : Slot) : Call h s (s.delete h).1 (s.delete h).2 :=
  ⟨fun o => h.freeOpt_step s.block o, fun _ => rfl⟩

theorem Slot.alloc_call (h : Heap) (d d' : DataM) : Call h ⟨d, none⟩ (Slot.alloc h d').1 (Slot.alloc h d').2 := by
  rw [Slot.alloc]
  split
  · next hd =>
    refine ⟨fun o => (h.create_step o).trans' (step_use _ _ _ _ (List.mem_cons_self ..)), fun _ => hd.symm⟩
  · next hd =>
    refine ⟨fun o => .refl _ _, fun _ => ?_⟩
    simpa [Slot.Good] using hd

theorem Slot.update_call (h : Heap) (s : Slot) : Call h s (s.update h).1 (s.update h).2.1 :=
  (s.delete_call h).trans (Slot.alloc_call _ _ _)

theorem Slot.touch_call (h : Heap) (s : Slot) : Call h s (s.touch h).1 (s.touch h).2.1 := by
  rw [Slot.touch]
  split
  · exact .refl _ _
  · exact s.update_call h

theorem Slot.setContent_call (h : Heap) (s : Slot) (c : Str) : Call h s (s.setContent h c).1 (s.setContent h c).2 :=
  ⟨fun o => h.freeOpt_step s.block o, fun _ => rfl⟩

theorem Slot.useOpt_call (h : Heap) (s : Slot) : Call h s (h.useOpt s.block) s :=
  ⟨fun o => h.useOpt_step _ _ fun i hi => by simp [hi], id⟩

theorem Slot.encodeData_call (h : Heap) (s : Slot) (payload : Str) : Call h s (s.encodeData h payload).1 (s.encodeData h payload).2.1 := by
  rw [Slot.encodeData]
  split
  · exact .refl _ _
  · split
    · split
      · exact s.useOpt_call h
      · next c _ => exact (s.useOpt_call h).trans (Slot.setContent_call _ s c)
    · exact .refl _ _

theorem Slot.compressData_call (h : Heap) (s : Slot) (bytes : Str) : Call h s (s.compressData h bytes).1 (s.compressData h bytes).2.1 := by
  rw [Slot.compressData]
  split
  · exact (Slot.delete_call _ s).trans (Slot.encodeData_call _ _ _)
  · exact Slot.encodeData_call _ _ _

/-- `SetContentAsData` from a block somebody else has. -/
theorem Slot.setData_step (h : Heap) (s : Slot) (src : Option Nat) (bytes : Str) (o : List Nat) (hs : ∀ i, src = some i → i ∈ o) :
    Step True (h.cfg (s.block.toList ++ o)) ((s.setData h src bytes).1.cfg ((s.setData h src bytes).2.1.block.toList ++ o)) := by
  rw [Slot.setData]
  have hc := (s.delete_call h).step o
  simp only [Slot.delete] at hc ⊢
  generalize h.freeOpt s.block = h1 at hc
  refine hc.trans' ((h1.create_step o).trans' (((h1.create).useOpt_step src (h1.next :: o) fun i hi => List.mem_cons_of_mem _ (hs i hi)).trans' ?_))
  refine (((h1.create).useOpt src).useOpt_step (some h1.next) (h1.next :: o) fun i hi => by simp at hi; simp [hi]).trans' ?_
  exact (Slot.compressData_call _ ⟨_, some h1.next⟩ _).step o

theorem Slot.setData_good (h : Heap) (s : Slot) (src : Option Nat) (bytes : Str) : (s.setData h src bytes).2.1.Good := by
  rw [Slot.setData]
  exact (Slot.compressData_call _ _ _).good rfl

/-! ## Comparisons -/

/-- What a call on two measurements does. -/
structure Call2 (h : Heap) (s t : Slot) (h' : Heap) (s' t' : Slot) : Prop where
  step : ∀ o, Step True (h.cfg (s.block.toList ++ (t.block.toList ++ o))) (h'.cfg (s'.block.toList ++ (t'.block.toList ++ o)))
  left : s.Good → s'.Good
  right : t.Good → t'.Good

theorem Call.two {h h' : Heap} {s s' : Slot} (c : Call h s h' s') (t : Slot) : Call2 h s t h' s' t :=
  ⟨fun _ => c.step _, c.good, id⟩

theorem Call.two' {h h' : Heap} {t t' : Slot} (c : Call h t h' t') (s : Slot) : Call2 h s t h' s t' := by
  refine ⟨fun o => ?_, id, c.good⟩
  have p : ∀ (u : Slot), (u.block.toList ++ (s.block.toList ++ o)).Perm (s.block.toList ++ (u.block.toList ++ o)) := by
    intro u
    rw [← List.append_assoc, ← List.append_assoc]
    exact List.perm_append_comm.append_right o
  exact ((step_perm _ _ (p t).symm).trans' (c.step _)).trans' (step_perm _ _ (p t'))

theorem Call2.refl (h : Heap) (s t : Slot) : Call2 h s t h s t := ⟨fun _ => .refl _ _, id, id⟩

theorem Call2.trans {h h' h'' : Heap} {s s' s'' t t' t'' : Slot} (a : Call2 h s t h' s' t') (b : Call2 h' s' t' h'' s'' t'') : Call2 h s t h'' s'' t'' :=
  ⟨fun o => (a.step o).trans' (b.step o), fun g => b.left (a.left g), fun g => b.right (a.right g)⟩

theorem Slot.compare_call (h : Heap) (s t : Slot) : Call2 h s t (s.compare h t).1 (s.compare h t).2.1 (s.compare h t).2.2.1 := by
  rw [Slot.compare]
  split
  · have c1 := (s.touch_call h).two t
    rcases e1 : s.touch h with ⟨h1, s1, e | u⟩ <;> rw [e1] at c1
    · exact c1
    · simp only at c1 ⊢
      have c2 := c1.trans ((t.touch_call h1).two' s1)
      rcases e2 : t.touch h1 with ⟨h2, t1, e | u⟩ <;> rw [e2] at c2
      · exact c2
      · simp only at c2 ⊢
        split
        · have c3 := c2.trans ((t1.touch_call h2).two' s1)
          rcases e3 : t1.touch h2 with ⟨h3, t2, e | u⟩ <;> rw [e3] at c3
          · exact c3
          · simp only at c3 ⊢
            have c4 := c3.trans ((s1.touch_call h3).two t2)
            rcases e4 : s1.touch h3 with ⟨h4, s2, e | u⟩ <;> rw [e4] at c4
            · exact c4
            · exact (c4.trans ((s2.useOpt_call h4).two t2)).trans ((t2.useOpt_call _).two' s2)
        · exact c2
  · exact .refl _ _ _

theorem Slot.compareSelf_call (h : Heap) (s : Slot) : Call h s (s.compareSelf h).1 (s.compareSelf h).2.1 := by
  rw [Slot.compareSelf]
  have c1 := s.touch_call h
  rcases e1 : s.touch h with ⟨h1, s1, e | u⟩ <;> rw [e1] at c1
  · exact c1
  · simp only at c1 ⊢
    have c2 := c1.trans (s1.touch_call h1)
    rcases e2 : s1.touch h1 with ⟨h2, s2, e | u⟩ <;> rw [e2] at c2
    · exact c2
    · exact (c2.trans (s2.useOpt_call h2)).trans (s2.useOpt_call _)

/-! ## Files -/

theorem loadFile_step (h : Heap) (files : Files) (f : FileM) (o : List Nat) :
    Step True (h.cfg o) ((loadFile h files f).1.cfg ((loadFile h files f).2.obj :: ((loadFile h files f).2.slot.block.toList ++ o))) := by
  rw [loadFile]
  split
  · exact h.create_step o
  · next bytes _ =>
    simp only
    refine (h.create_step o).trans' ((step_use h.create.next h.create.log (h.next :: o) h.next (List.mem_cons_self ..)).trans' ?_)
    have e : (⟨h.create.next, h.create.log ++ [.use h.next], h.next :: o⟩ : C) = (h.create.add (.use h.next)).cfg (h.next :: o) := rfl
    rw [e]
    generalize h.create.add (.use h.next) = h1
    refine (h1.create_step (h.next :: o)).trans' ?_
    have hd := Slot.setData_step h1.create ⟨(createDataMeasurement f.type).getD { kind := .plain }, none⟩ (some h.next) bytes (h1.next :: h.next :: o)
      (fun i hi => by injection hi with hi; simp [hi])
    refine Step.trans' hd ?_
    generalize Slot.setData _ _ _ _ = q
    obtain ⟨h2, s, r⟩ := q
    refine (step_use h2.next h2.log (s.block.toList ++ h1.next :: h.next :: o) h1.next (by simp)).trans' ?_
    refine (step_perm (h' := h.next :: h1.next :: (s.block.toList ++ o)) _ _ ?_).trans' (step_destroy _ _ _ h.next)
    have p : (s.block.toList ++ h1.next :: h.next :: o).Perm (h1.next :: h.next :: (s.block.toList ++ o)) :=
      List.perm_middle.trans (List.Perm.cons _ List.perm_middle)
    exact p.trans (List.Perm.swap ..)

theorem unload_step (h : Heap) (l : Loaded) (o : List Nat) : Step True (h.cfg (l.obj :: (l.slot.block.toList ++ o))) ((unload h l).cfg o) := by
  refine (step_perm (h' := l.slot.block.toList ++ l.obj :: o) _ _ List.perm_middle.symm).trans' ?_
  exact (h.freeOpt_step l.slot.block (l.obj :: o)).trans' (step_destroy _ _ _ l.obj)

/-- The comparison with a file; nothing is lost unless it ends by an exception. -/
theorem fileVsData_step (h : Heap) (files : Files) (f : FileM) (s : Slot) (o : List Nat) :
    Step ((fileVsData h files f s).2.2.isOk = true) (h.cfg (s.block.toList ++ o)) ((fileVsData h files f s).1.cfg ((fileVsData h files f s).2.1.block.toList ++ o)) ∧
      (s.Good → (fileVsData h files f s).2.1.Good) := by
  rw [fileVsData]
  split
  · exact ⟨(Step.refl True _).imp fun _ => trivial, id⟩
  · have h1 := loadFile_step h files f (s.block.toList ++ o)
    rcases hl : loadFile h files f with ⟨hp, l⟩
    rw [hl] at h1
    simp only at h1 ⊢
    have h2 : Step True (hp.cfg (l.obj :: (l.slot.block.toList ++ (s.block.toList ++ o)))) ((hp.add (.use l.obj)).cfg (l.obj :: (l.slot.block.toList ++ (s.block.toList ++ o)))) :=
      step_use _ _ _ _ (List.mem_cons_self ..)
    have p : ∀ (s t : Slot), (l.obj :: (t.block.toList ++ (s.block.toList ++ o))).Perm (s.block.toList ++ (t.block.toList ++ (l.obj :: o))) := by
      intro s t
      refine List.Perm.trans ?_ (List.Perm.append_left _ List.perm_middle.symm)
      refine List.Perm.trans ?_ List.perm_middle.symm
      refine List.Perm.cons _ ?_
      rw [← List.append_assoc, ← List.append_assoc]
      exact List.perm_append_comm.append_right o
    have c := s.compare_call (hp.add (.use l.obj)) l.slot
    have h3 := (h1.trans' h2).trans' ((step_perm _ _ (p s l.slot)).trans' (c.step (l.obj :: o)))
    rcases hc : s.compare (hp.add (.use l.obj)) l.slot with ⟨h4, s', t', e | v⟩
    · rw [hc] at c h3
      simp only at c h3 ⊢
      refine ⟨(h3.trans (step_drop _ _ (h' := s'.block.toList ++ o) ?_)).imp fun hf => (by cases hf), c.left⟩
      refine List.Sublist.append_left ?_ _
      exact (List.sublist_cons_self _ _).trans (List.sublist_append_right _ _)
    · rw [hc] at c h3
      simp only at c h3 ⊢
      refine ⟨((h3.trans' (step_perm _ _ (p s' t').symm)).trans' (unload_step h4 ⟨l.obj, t'⟩ _)).imp fun _ => trivial, c.left⟩

theorem fileVsFile_step (h : Heap) (files : Files) (f g : FileM) (o : List Nat) :
    Step ((fileVsFile h files f g).2.isOk = true) (h.cfg o) ((fileVsFile h files f g).1.cfg o) := by
  rw [fileVsFile]
  split
  · exact (Step.refl True _).imp fun _ => trivial
  · have h1 := loadFile_step h files f o
    rcases hl : loadFile h files f with ⟨hp, l⟩
    rw [hl] at h1
    simp only at h1 ⊢
    have h2 : Step True (hp.cfg (l.obj :: (l.slot.block.toList ++ o))) ((hp.add (.use l.obj)).cfg (l.obj :: (l.slot.block.toList ++ o))) :=
      step_use _ _ _ _ (List.mem_cons_self ..)
    have h3 := (h1.trans' h2).trans' (step_perm (h' := l.slot.block.toList ++ l.obj :: o) _ _ List.perm_middle.symm)
    obtain ⟨c, -⟩ := fileVsData_step (hp.add (.use l.obj)) files g l.slot (l.obj :: o)
    rcases hc : fileVsData (hp.add (.use l.obj)) files g l.slot with ⟨h4, t', e | v⟩
    · rw [hc] at c
      simp only at c ⊢
      refine ((h3.trans c).trans (step_drop _ _ (h' := o) ?_)).imp fun hf => (by cases hf)
      exact (List.sublist_cons_self _ _).trans (List.sublist_append_right _ _)
    · rw [hc] at c
      simp only at c ⊢
      have h5 : Step True (h4.cfg (t'.block.toList ++ l.obj :: o)) (h4.cfg (l.obj :: (t'.block.toList ++ o))) := step_perm _ _ List.perm_middle
      exact (((h3.trans c).trans h5).trans (unload_step h4 ⟨l.obj, t'⟩ o)).imp fun _ => ⟨⟨⟨trivial, rfl⟩, trivial⟩, trivial⟩

end Verif.Life
