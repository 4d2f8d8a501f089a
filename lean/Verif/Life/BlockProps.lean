import Verif.Life.BlockValues

/-!
# C99: blocks of measurements
-/

namespace Verif.Life
open Spec Verif.Measurement Verif.Base64

/-! ## The history grows -/

/-- Nothing is taken back. -/
def Grows (h h' : Heap) : Prop := h.log <+: h'.log

theorem Grows.refl (h : Heap) : Grows h h := List.prefix_refl _
theorem Grows.trans {a b c : Heap} (h : Grows a b) (h' : Grows b c) : Grows a c := List.IsPrefix.trans h h'
theorem Heap.grows_add (h : Heap) (e : Ev) : Grows h (h.add e) := List.prefix_append _ _
theorem Heap.grows_create (h : Heap) : Grows h h.create := List.prefix_append _ _
theorem Heap.grows_useOpt (h : Heap) (p : Option Nat) : Grows h (h.useOpt p) := by cases p; exact .refl h; exact h.grows_add _
theorem Heap.grows_freeOpt (h : Heap) (p : Option Nat) : Grows h (h.freeOpt p) := by cases p; exact .refl h; exact h.grows_add _

theorem Slot.grows_delete (h : Heap) (s : Slot) : Grows h (s.delete h).1 := h.grows_freeOpt _

theorem Slot.grows_update (h : Heap) (s : Slot) : Grows h (s.update h).1 := by
  refine (s.grows_delete h).trans ?_
  simp only [Slot.update, Slot.alloc]
  split
  · exact (Heap.grows_create _).trans (Heap.grows_add _ _)
  · exact .refl _

theorem Slot.grows_touch (h : Heap) (s : Slot) : Grows h (s.touch h).1 := by
  rw [Slot.touch]
  split
  · exact .refl _
  · exact s.grows_update h

theorem Slot.grows_encodeData (h : Heap) (s : Slot) (payload : Str) : Grows h (s.encodeData h payload).1 := by
  rw [Slot.encodeData]
  split
  · exact .refl _
  · split
    · split
      · exact h.grows_useOpt _
      · exact (h.grows_useOpt _).trans (Heap.grows_freeOpt _ _)
    · exact .refl _

theorem Slot.grows_compressData (h : Heap) (s : Slot) (bytes : Str) : Grows h (s.compressData h bytes).1 := by
  rw [Slot.compressData]
  split
  · exact (s.grows_delete h).trans (Slot.grows_encodeData _ _ _)
  · exact s.grows_encodeData h bytes

theorem Slot.grows_setData' (h : Heap) (s : Slot) (src : Option Nat) (bytes : Str) :
    Grows (((h.freeOpt s.block).create).useOpt src) (s.setData h src bytes).1 :=
  (Heap.grows_useOpt _ _).trans (Slot.grows_compressData _ _ _)

theorem Slot.grows_setData (h : Heap) (s : Slot) (src : Option Nat) (bytes : Str) : Grows h (s.setData h src bytes).1 :=
  (((h.grows_freeOpt _).trans (Heap.grows_create _)).trans (Heap.grows_useOpt _ _)).trans (s.grows_setData' h src bytes)

theorem Slot.grows_compare (h : Heap) (s t : Slot) : Grows h (s.compare h t).1 := by
  rw [Slot.compare]
  split
  · have c1 := s.grows_touch h
    rcases e1 : s.touch h with ⟨h1, s1, e | u⟩ <;> rw [e1] at c1
    · exact c1
    · simp only at c1 ⊢
      have c2 := c1.trans (t.grows_touch h1)
      rcases e2 : t.touch h1 with ⟨h2, t1, e | u⟩ <;> rw [e2] at c2
      · exact c2
      · simp only at c2 ⊢
        split
        · have c3 := c2.trans (t1.grows_touch h2)
          rcases e3 : t1.touch h2 with ⟨h3, t2, e | u⟩ <;> rw [e3] at c3
          · exact c3
          · simp only at c3 ⊢
            have c4 := c3.trans (s1.grows_touch h3)
            rcases e4 : s1.touch h3 with ⟨h4, s2, e | u⟩ <;> rw [e4] at c4
            · exact c4
            · exact (c4.trans (Heap.grows_useOpt _ _)).trans (Heap.grows_useOpt _ _)
        · exact c2
  · exact .refl _

theorem Slot.grows_compareSelf (h : Heap) (s : Slot) : Grows h (s.compareSelf h).1 := by
  rw [Slot.compareSelf]
  have c1 := s.grows_touch h
  rcases e1 : s.touch h with ⟨h1, s1, e | u⟩ <;> rw [e1] at c1
  · exact c1
  · simp only at c1 ⊢
    have c2 := c1.trans (s1.grows_touch h1)
    rcases e2 : s1.touch h1 with ⟨h2, s2, e | u⟩ <;> rw [e2] at c2
    · exact c2
    · exact (c2.trans (Heap.grows_useOpt _ _)).trans (Heap.grows_useOpt _ _)

theorem grows_loadFile (h : Heap) (files : Files) (f : FileM) : Grows h (loadFile h files f).1 := by
  rw [loadFile]
  split
  · exact h.grows_create
  · exact ((((h.grows_create.trans (Heap.grows_add _ _)).trans (Heap.grows_create _)).trans (Slot.grows_setData _ _ _ _)).trans (Heap.grows_add _ _)).trans
      (Heap.grows_add _ _)

theorem grows_unload (h : Heap) (l : Loaded) : Grows h (unload h l) := (h.grows_freeOpt _).trans (Heap.grows_add _ _)

theorem grows_fileVsData (h : Heap) (files : Files) (f : FileM) (s : Slot) : Grows h (fileVsData h files f s).1 := by
  rw [fileVsData]
  split
  · exact .refl _
  · have h1 := grows_loadFile h files f
    rcases hl : loadFile h files f with ⟨hp, l⟩
    rw [hl] at h1
    simp only at h1 ⊢
    have c := (h1.trans (hp.grows_add (.use l.obj))).trans (s.grows_compare (hp.add (.use l.obj)) l.slot)
    rcases hc : s.compare (hp.add (.use l.obj)) l.slot with ⟨h4, s', t', e | v⟩ <;> rw [hc] at c
    · exact c
    · exact c.trans (grows_unload _ _)

theorem grows_fileVsFile (h : Heap) (files : Files) (f g : FileM) : Grows h (fileVsFile h files f g).1 := by
  rw [fileVsFile]
  split
  · exact .refl _
  · have h1 := grows_loadFile h files f
    rcases hl : loadFile h files f with ⟨hp, l⟩
    rw [hl] at h1
    simp only at h1 ⊢
    have c := (h1.trans (hp.grows_add (.use l.obj))).trans (grows_fileVsData (hp.add (.use l.obj)) files g l.slot)
    rcases hc : fileVsData (hp.add (.use l.obj)) files g l.slot with ⟨h4, t', e | v⟩ <;> rw [hc] at c
    · exact c
    · exact c.trans (grows_unload _ _)

theorem Pool.grows_transfer (p : Pool) (i j : Nat) (s t : Slot) : Grows p.heap (p.transfer i j s t).1.heap := by
  rw [Pool.transfer]
  have c1 := t.grows_touch p.heap
  rcases e1 : t.touch p.heap with ⟨h1, t1, e | u⟩ <;> rw [e1] at c1
  · exact c1
  · simp only at c1 ⊢
    have c2 := c1.trans (t1.grows_touch h1)
    rcases e2 : t1.touch h1 with ⟨h2, t2, e | u⟩ <;> rw [e2] at c2
    · exact c2
    · exact c2.trans (Slot.grows_setData _ _ _ _)

theorem Pool.grows_step (p : Pool) (op : Op) : Grows p.heap (p.step op).1.heap := by
  cases op with
  | new m => cases m <;> exact .refl _
  | copy i =>
    simp only [Pool.step]
    split
    · next t _ => cases t <;> exact .refl _
    · exact .refl _
  | assign i j =>
    simp only [Pool.step]
    split
    · next s t _ _ =>
      cases s <;> cases t <;> simp only [Pool.assign]
      · split <;> exact .refl _
      all_goals exact .refl _
    · exact .refl _
  | setName i n =>
    simp only [Pool.step]
    split
    · next t _ => cases t <;> exact .refl _
    · exact .refl _
  | setContent i c =>
    simp only [Pool.step]
    split
    · next t _ =>
      cases t
      · exact Heap.grows_freeOpt _ _
      · exact .refl _
    · exact .refl _
  | setEncoding i e => simp only [Pool.step]; split <;> exact .refl _
  | setCompression i e => simp only [Pool.step]; split <;> exact .refl _
  | read i =>
    simp only [Pool.step]
    split
    · next s _ => exact (s.grows_touch p.heap).trans (Heap.grows_useOpt _ _)
    · exact .refl _
  | write i bytes =>
    simp only [Pool.step]
    split
    · next s _ => exact s.grows_setData p.heap none bytes
    · exact .refl _
  | transfer i j =>
    simp only [Pool.step]
    split
    · next s t _ _ => exact p.grows_transfer i j s t
    · exact .refl _
  | compare files i j =>
    simp only [Pool.step]
    split
    · next s t _ _ =>
      cases s with
      | data s =>
        cases t with
        | data t =>
          simp only [Pool.compare]
          split
          · exact s.grows_compareSelf p.heap
          · exact s.grows_compare p.heap t
        | file g => exact grows_fileVsData p.heap files g s
      | file f =>
        cases t with
        | data t => exact grows_fileVsData p.heap files f t
        | file g => exact grows_fileVsFile p.heap files f g
    · exact .refl _
  | destroy i =>
    simp only [Pool.step]
    split
    · next t _ =>
      cases t
      · exact Heap.grows_freeOpt _ _
      · exact .refl _
    · exact .refl _

theorem Pool.grows_run (ops : List Op) : ∀ p : Pool, Grows p.heap (p.run ops).heap := by
  induction ops with
  | nil => intro p; exact .refl _
  | cons op ops ih => intro p; exact (p.grows_step op).trans (ih _)

theorem Pool.run_append (ops ops' : List Op) : ∀ p : Pool, p.run (ops ++ ops') = (p.run ops).run ops' := by
  induction ops with
  | nil => intro p; rfl
  | cons op ops ih => intro p; exact ih _

theorem Values.run_append (ops ops' : List Op) : ∀ l : Values, l.run (ops ++ ops') = Values.run (l.run ops) ops' := by
  induction ops with
  | nil => intro p; rfl
  | cons op ops ih => intro p; exact ih _

theorem Valid.prefix {l l' : List Ev} (h : Valid l') (hp : l <+: l') : Valid l := by
  obtain ⟨r, rfl⟩ := hp
  intro before e after he
  exact h before e (after ++ r) (by rw [he]; simp)

/-! ## `SetContentAsData` with the measurement's own data -/

theorem Pool.transfer_good (p : Pool) (i j : Nat) (s t : Slot) (hg : p.Good) (ht : p.get j = some (.data t)) : (p.transfer i j s t).1.Good := by
  rw [Pool.transfer]
  have c1 := t.touch_call p.heap
  rcases e1 : t.touch p.heap with ⟨h1, t1, e | u⟩ <;> rw [e1] at c1
  · exact p.good_putData hg _ _ _ (c1.good (hg _ _ ht))
  · simp only at c1 ⊢
    have c2 := c1.trans (t1.touch_call h1)
    rcases e2 : t1.touch h1 with ⟨h2, t2, e | u⟩ <;> rw [e2] at c2
    · exact p.good_putData hg _ _ _ (c2.good (hg _ _ ht))
    · exact Pool.good_putData (p.good_putData hg _ _ _ (c2.good (hg _ _ ht))) _ _ _ (Slot.setData_good _ _ _ _)

theorem Pool.step_good (p : Pool) (op : Op) (hg : p.Good) : (p.step op).1.Good := by
  by_cases ho : ∀ i, op ≠ .transfer i i
  · exact (p.step_step op ho hg).2
  · obtain ⟨i, hi⟩ := not_forall.mp ho
    have hi := not_not.mp hi
    subst hi
    simp only [Pool.step]
    split
    · next s t _ ht => exact p.transfer_good i i s t hg ht
    · exact hg

/-- The measurement is read, the data is in a block. -/
theorem Pool.takesOwn_iff (p : Pool) (hg : p.Good) (i : Nat) : TakesOwn p.values (.transfer i i) ↔
    ∃ t h1 t1 b, p.get i = some (.data t) ∧ t.touch p.heap = (h1, t1, .ok ()) ∧ t1.block = some b := by
  constructor
  · rintro ⟨k, d, d', cells, hk, hd, hdd, hs⟩
    injection hk with hk
    subst hk
    rw [Pool.values_get] at hd
    cases ht : p.get i with
    | none => rw [ht] at hd; cases hd
    | some t =>
      rw [ht] at hd
      cases t with
      | file f => cases hd
      | data t =>
        simp only [Option.map_some, Thing.value, Option.some.injEq, Meas.data.injEq] at hd
        subst hd
        rw [t.touch_data p.heap (hg i t ht)] at hdd
        have g1 := (t.touch_call p.heap).good (hg i t ht)
        rcases e1 : t.touch p.heap with ⟨h1, t1, e | u⟩ <;> rw [e1] at hdd g1
        · cases hdd
        · simp only [Except.map, Prod.mk.injEq] at hdd g1
          obtain ⟨rfl, -⟩ := hdd
          rw [← g1] at hs
          obtain ⟨b, hb⟩ := Option.isSome_iff_exists.mp hs
          exact ⟨t, h1, t1, b, rfl, e1, hb⟩
  · rintro ⟨t, h1, t1, b, ht, e1, hb⟩
    have g1 := (t.touch_call p.heap).good (hg i t ht)
    rw [e1] at g1
    refine ⟨i, t.d, t1.d, t1.cells, rfl, by rw [Pool.values_get, ht]; rfl, ?_, ?_⟩
    · rw [t.touch_data p.heap (hg i t ht), e1]
      rfl
    · rw [Slot.Good, hb] at g1
      exact g1.symm

theorem Pool.transfer_self (p : Pool) (i : Nat) (hg : p.Good) (hn : ¬ TakesOwn p.values (.transfer i i)) : Step True p.cfg (p.step (.transfer i i)).1.cfg := by
  simp only [Pool.step]
  split
  · next s t hs ht =>
    simp only [Pool.transfer]
    have c1 := t.touch_call p.heap
    rcases e1 : t.touch p.heap with ⟨h1, t1, e | u⟩ <;> rw [e1] at c1
    · exact Pool.step_putData ht c1
    · simp only [if_true] at c1 ⊢
      rw [Slot.touch_again (hg i t ht) e1]
      simp only
      have hb : t1.block = none := by
        cases hb : t1.block with
        | none => rfl
        | some b => exact absurd ((p.takesOwn_iff hg i).mpr ⟨t, h1, t1, b, ht, e1, hb⟩) hn
      have h2 : Step True p.cfg (p.putData (t1.setData h1 t1.block (bytesOf t1.cells)).1 i (t1.setData h1 t1.block (bytesOf t1.cells)).2.1).cfg :=
        Pool.step_put ht fun o => (c1.step o).trans' (t1.setData_step h1 t1.block _ o fun k hk => by rw [hb] at hk; cases hk)
      have e : (p.putData h1 i t1).putData (t1.setData h1 t1.block (bytesOf t1.cells)).1 i (t1.setData h1 t1.block (bytesOf t1.cells)).2.1 =
          p.putData (t1.setData h1 t1.block (bytesOf t1.cells)).1 i (t1.setData h1 t1.block (bytesOf t1.cells)).2.1 := by
        simp only [Pool.putData, Pool.put, List.set_set]
      rw [e]
      exact h2
  · exact .refl _ _

/-- The copied block was freed before. -/
theorem Pool.transfer_own (p : Pool) (i : Nat) (hg : p.Good) (ho : TakesOwn p.values (.transfer i i)) : ¬ Valid (p.step (.transfer i i)).1.heap.log := by
  obtain ⟨t, h1, t1, b, ht, e1, hb⟩ := (p.takesOwn_iff hg i).mp ho
  intro hv
  simp only [Pool.step, ht, Pool.transfer, e1, if_true] at hv
  rw [Slot.touch_again (hg i t ht) e1] at hv
  simp only [Pool.putData, Pool.put] at hv
  have hp : Grows (((h1.freeOpt t1.block).create).useOpt t1.block) (t1.setData h1 t1.block (bytesOf t1.cells)).1 := t1.grows_setData' h1 _ _
  have hv := Valid.prefix hv hp
  rw [hb] at hv
  have := (hv (h1.log ++ [.destroy b, .create h1.next]) (.use b) [] (by simp [Heap.useOpt, Heap.freeOpt, Heap.create, Heap.add])).2
  simp at this

/-! ## Programs -/

theorem Pool.run_good (ops : List Op) : ∀ p : Pool, p.Good → (p.run ops).Good := by
  induction ops with
  | nil => intro p h; exact h
  | cons op ops ih => intro p h; exact ih _ (p.step_good op h)

theorem Pool.empty_good : Pool.Good {} := by intro i s h; simp [Pool.get] at h

theorem Pool.run_values (ops : List Op) : ∀ p : Pool, p.Good → (p.run ops).values = p.values.run ops := by
  induction ops with
  | nil => intro p _; rfl
  | cons op ops ih =>
    intro p h
    have e := p.step_values op h
    rw [Pool.run, ih _ (p.step_good op h), Values.run, ← e]

theorem values_eq (ops : List Op) : (Pool.run {} ops).values = values ops := Pool.run_values ops {} Pool.empty_good

/-- **C99, what is measured does not depend on memory.** The values of the measurements after any program, and the answer of the next call, are those of
the functions without memory. -/
theorem C99_same_values (ops : List Op) (op : Op) :
    (Pool.run {} ops).values = values ops ∧ ((Pool.run {} ops).step op).2 = ((values ops).step op).2 := by
  refine ⟨values_eq ops, ?_⟩
  rw [← values_eq ops, ← Pool.step_values _ op (Pool.run_good ops {} Pool.empty_good)]

theorem Pool.step_any (p : Pool) (op : Op) (hg : p.Good) (hn : ¬ TakesOwn p.values op) : Step (KeepsBlocks p op) p.cfg (p.step op).1.cfg := by
  by_cases ho : ∀ i, op ≠ .transfer i i
  · exact (p.step_step op ho hg).1
  · obtain ⟨i, hi⟩ := not_forall.mp ho
    have hi := not_not.mp hi
    subst hi
    exact (p.transfer_self i hg hn).imp fun _ => trivial

/-- Calls that lose nothing. -/
def Saves (p : Pool) : List Op → Prop
  | [] => True
  | op :: ops => KeepsBlocks p op ∧ Saves (p.step op).1 ops

/-- No call takes its own data. -/
def ProperFrom (l : Values) : List Op → Prop
  | [] => True
  | op :: ops => ¬ TakesOwn l op ∧ ProperFrom (l.step op).1 ops

theorem properFrom_iff (ops : List Op) : ∀ l : Values, ProperFrom l ops ↔ ∀ before op after, ops = before ++ op :: after → ¬ TakesOwn (l.run before) op := by
  induction ops with
  | nil => intro l; exact ⟨fun _ b op a h => by simp at h, fun _ => trivial⟩
  | cons x ops ih =>
    intro l
    rw [ProperFrom, ih]
    constructor
    · rintro ⟨h1, h2⟩ before op after he
      cases before with
      | nil => injection he with he _; subst he; exact h1
      | cons y before =>
        injection he with he he'
        subst he
        exact h2 before op after he'
    · intro h
      exact ⟨h [] x ops rfl, fun before op after he => h (x :: before) op after (by rw [he]; rfl)⟩

theorem proper_iff (ops : List Op) : Proper ops ↔ ProperFrom [] ops := (properFrom_iff ops []).symm

theorem Pool.run_step (ops : List Op) : ∀ p : Pool, p.Good → ProperFrom p.values ops → Step (Saves p ops) p.cfg (p.run ops).cfg := by
  induction ops with
  | nil => intro p _ _; exact (Step.refl True _).imp fun _ => trivial
  | cons op ops ih =>
    intro p hg hp
    have e := congrArg Prod.fst (p.step_values op hg)
    simp only at e
    have h2 := ih (p.step op).1 (p.step_good op hg) (by rw [e]; exact hp.2)
    exact (p.step_any op hg hp.1).trans h2

theorem empty_inv : Inv (Pool.cfg {}) :=
  ⟨fun b e a h => (by simp [Pool.cfg, Heap.cfg] at h), fun i h => (by simp [Pool.cfg, Heap.cfg] at h), List.nodup_nil, fun i h => (by simp [Pool.cfg, Heap.cfg, held] at h)⟩

theorem run_inv (ops : List Op) (h : Proper ops) : Inv (Pool.run {} ops).cfg := (Pool.run_step ops {} Pool.empty_good ((proper_iff ops).mp h)).inv empty_inv

/-- **C99, use of freed memory.** Memory of measurements is used after it was freed, freed twice or used before it was allocated exactly in the programs that give
`SetContentAsData` of a measurement the pointer its own `GetContentAsData` returned while this is not its content. -/
theorem C99_valid_iff (ops : List Op) : Valid (memory ops) ↔ Proper ops := by
  constructor
  · intro hv before op after he ho
    have hv : Valid (Pool.run {} (before ++ op :: after)).heap.log := by rw [← he]; exact hv
    rw [Pool.run_append, Pool.run] at hv
    have hv := Valid.prefix hv (Pool.grows_run after _)
    obtain ⟨i, d, d', cells, hk, h1⟩ := ho
    subst hk
    refine Pool.transfer_own _ i (Pool.run_good before {} Pool.empty_good) ?_ hv
    rw [values_eq]
    exact ⟨i, d, d', cells, rfl, h1⟩
  · intro h
    exact (run_inv ops h).valid

end Verif.Life
