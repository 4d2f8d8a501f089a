import Verif.Life.BlockPool
import Verif.Life.BlockSpec

/-!
# The values of measurements do not depend on memory
-/

namespace Verif.Life
open Spec Verif.Measurement Verif.Base64

theorem DataM.update_bare (d : DataM) : ({ d with data := none } : DataM).update = d.update := rfl

theorem Slot.alloc_d (h : Heap) (d : DataM) : (Slot.alloc h d).2.d = d := by
  rw [Slot.alloc]; split <;> rfl

theorem Slot.update_eq (h : Heap) (s : Slot) : s.d.update = ((s.update h).2.1.d, (s.update h).2.2) := by
  simp only [Slot.update, Slot.delete, Slot.alloc_d, DataM.update_bare]

theorem Slot.touch_size (h : Heap) (s : Slot) (hg : s.Good) : s.d.getSize = ((s.touch h).2.1.d, (s.touch h).2.2.map fun _ => (s.touch h).2.1.size) := by
  rw [Slot.touch, DataM.getSize]
  cases hb : s.block with
  | some b =>
    rw [Slot.Good, hb] at hg
    obtain ⟨c, hc⟩ := Option.isSome_iff_exists.mp hg.symm
    rw [hc]
    simp [Except.map, Slot.size, hc]
  | none =>
    rw [Slot.Good, hb] at hg
    have hc : s.d.data = none := by simpa using hg.symm
    rw [hc]
    simp only
    rw [s.update_eq h]
    generalize s.update h = q
    obtain ⟨h', s', e | u⟩ := q
    · rfl
    · simp only [Except.map, Slot.size]
      cases s'.d.data <;> rfl

theorem Slot.touch_data (h : Heap) (s : Slot) (hg : s.Good) : s.d.getData = ((s.touch h).2.1.d, (s.touch h).2.2.map fun _ => (s.touch h).2.1.cells) := by
  rw [Slot.touch, DataM.getData]
  cases hb : s.block with
  | some b =>
    rw [Slot.Good, hb] at hg
    obtain ⟨c, hc⟩ := Option.isSome_iff_exists.mp hg.symm
    rw [hc]
    simp [Except.map, Slot.cells, hc]
  | none =>
    rw [Slot.Good, hb] at hg
    have hc : s.d.data = none := by simpa using hg.symm
    rw [hc]
    simp only
    rw [s.update_eq h]
    generalize s.update h = q
    obtain ⟨h', s', e | u⟩ := q
    · rfl
    · simp only [Except.map, Slot.cells]
      cases s'.d.data <;> rfl

theorem Slot.encodeData_eq (h : Heap) (s : Slot) (payload : Str) : ((s.encodeData h payload).2.1.d, (s.encodeData h payload).2.2) =
    (if s.d.encoding = b!"none" then (s.d, .ok ())
     else if s.d.encoding = b!"base64" then
      match encode true payload with
      | .error f => (s.d, .error f)
      | .ok c => (s.d.setContent c, .ok ())
     else (s.d, .ok ())) := by
  rw [Slot.encodeData]
  split
  · rfl
  · split
    · cases encode true payload <;> rfl
    · rfl

theorem Slot.compressData_eq (h : Heap) (s : Slot) (bytes : Str) : ((s.compressData h bytes).2.1.d, (s.compressData h bytes).2.2) =
    if s.d.compression ≠ b!"none" then
      (if s.d.encoding = b!"none" then ({ s.d with data := none }, .ok ())
       else if s.d.encoding = b!"base64" then
        match encode true [] with
        | .error f => ({ s.d with data := none }, .error f)
        | .ok c => (({ s.d with data := none } : DataM).setContent c, .ok ())
       else ({ s.d with data := none }, .ok ()))
    else
      (if s.d.encoding = b!"none" then (s.d, .ok ())
       else if s.d.encoding = b!"base64" then
        match encode true bytes with
        | .error f => (s.d, .error f)
        | .ok c => (s.d.setContent c, .ok ())
       else (s.d, .ok ())) := by
  rw [Slot.compressData]
  split
  · exact Slot.encodeData_eq _ _ _
  · exact Slot.encodeData_eq _ _ _

theorem Slot.setData_eq (h : Heap) (s : Slot) (src : Option Nat) (bytes : Str) : s.d.setData bytes = ((s.setData h src bytes).2.1.d, (s.setData h src bytes).2.2) := by
  refine Eq.trans ?_ (Slot.compressData_eq _ _ _).symm
  simp only [DataM.setData]
  by_cases hc : s.d.compression = b!"none"
  · simp only [hc, ne_eq, not_true, if_false]
    cases hy : encode true bytes <;> simp
  · simp only [hc, ne_eq, not_false_eq_true, if_true]
    cases hy : encode true [] <;> simp

theorem DataM.update_again {d d' : DataM} (h : d.update = (d', .ok ())) (hn : d'.data = none) : d'.update = (d', .ok ()) := by
  have hd : d' = { d with data := none } := by
    rw [DataM.update] at h
    simp only at h
    split at h
    · exact (congrArg Prod.fst h).symm
    · split at h
      · split at h
        · cases h
        · split at h
          · split at h
            · cases h
            · have := congrArg Prod.fst h
              simp only at this
              rw [← this] at hn
              cases hn
          · exact (congrArg Prod.fst h).symm
      · exact (congrArg Prod.fst h).symm
  rw [hd] at h ⊢
  exact h

/-- Reading again changes nothing. -/
theorem Slot.touch_again {h h1 : Heap} {s s1 : Slot} (hg : s.Good) (ht : s.touch h = (h1, s1, .ok ())) (h2 : Heap) : s1.touch h2 = (h2, s1, .ok ()) := by
  have g1 := (s.touch_call h).good hg
  rw [ht] at g1
  simp only at g1
  rw [Slot.touch]
  cases hb : s1.block with
  | some b => rfl
  | none =>
    simp only
    have hn : s1.d.data = none := by
      rw [Slot.Good, hb] at g1
      simpa using g1.symm
    have hu : s.d.update = (s1.d, .ok ()) := by
      rw [Slot.touch] at ht
      split at ht
      · next b hb' => injection ht with _ e; injection e with e; rw [e, hb] at hb'; cases hb'
      · rw [s.update_eq h, ht]
    have hu := DataM.update_again hu hn
    have e : ({ s1.d with data := none } : DataM).update = (s1.d, .ok ()) := hu
    simp only [Slot.update, Slot.delete, hb, e, Heap.freeOpt, Slot.alloc, hn]
    obtain ⟨d, b⟩ := s1
    simp only at hb
    subst hb
    rfl

theorem Slot.compare_eq (h : Heap) (s t : Slot) (hs : s.Good) (ht : t.Good) :
    s.d.isEqual t.d = ((s.compare h t).2.1.d, (s.compare h t).2.2.1.d, (s.compare h t).2.2.2) := by
  rw [DataM.isEqual, Slot.compare]
  split
  · have g1 := (s.touch_call h).good hs
    rw [s.touch_size h hs]
    rcases e1 : s.touch h with ⟨h1, s1, e | u⟩ <;> rw [e1] at g1
    · rfl
    · simp only [Except.map] at g1 ⊢
      have g2 := (t.touch_call h1).good ht
      rw [t.touch_size h1 ht]
      rcases e2 : t.touch h1 with ⟨h2, t1, e | u⟩ <;> rw [e2] at g2
      · rfl
      · simp only [Except.map] at g2 ⊢
        split
        · have g3 := (t1.touch_call h2).good g2
          rw [t1.touch_data h2 g2]
          rcases e3 : t1.touch h2 with ⟨h3, t2, e | u⟩ <;> rw [e3] at g3
          · rfl
          · simp only [Except.map] at g3 ⊢
            rw [s1.touch_data h3 g1, Slot.touch_again hs e1]
            rfl
        · rfl
  · rfl

theorem Slot.compareSelf_eq (h : Heap) (s : Slot) (hs : s.Good) :
    (s.d.isEqual s.d).1 = (s.compareSelf h).2.1.d ∧ (s.d.isEqual s.d).2.2 = (s.compareSelf h).2.2 := by
  rw [DataM.isEqual, if_pos ⟨rfl, rfl⟩, Slot.compareSelf, s.touch_size h hs]
  have g1 := (s.touch_call h).good hs
  rcases e1 : s.touch h with ⟨h1, s1, e | u⟩ <;> rw [e1] at g1
  · exact ⟨rfl, rfl⟩
  · simp only [Except.map, if_true] at g1 ⊢
    rw [s1.touch_data h1 g1, Slot.touch_again hs e1]
    exact ⟨rfl, rfl⟩

theorem loadFile_eq (h : Heap) (files : Files) (f : FileM) : (loadFile h files f).2.slot.d = f.load files ∧ (loadFile h files f).2.slot.Good := by
  rw [loadFile, FileM.load]
  cases files (f.fileName.takeWhile (· ≠ 0)) with
  | none => exact ⟨rfl, rfl⟩
  | some bytes =>
    simp only
    refine ⟨?_, Slot.setData_good _ _ _ _⟩
    have e := Slot.setData_eq (h.create.add (.use h.next)).create ⟨(createDataMeasurement f.type).getD { kind := .plain }, none⟩ (some h.next) bytes
    simp only at e
    rw [e]

theorem fileVsData_eq (h : Heap) (files : Files) (f : FileM) (s : Slot) (hs : s.Good) :
    f.isEqualData files s.d = ((fileVsData h files f s).2.1.d, (fileVsData h files f s).2.2) := by
  rw [FileM.isEqualData, fileVsData]
  split
  · rfl
  · obtain ⟨l1, l2⟩ := loadFile_eq h files f
    rcases hl : loadFile h files f with ⟨hp, l⟩
    rw [hl] at l1 l2
    simp only at l1 l2 ⊢
    rw [← l1, Slot.compare_eq (hp.add (.use l.obj)) s l.slot hs l2]
    rcases Slot.compare (hp.add (.use l.obj)) s l.slot with ⟨h4, s', t', e | v⟩ <;> rfl

theorem fileVsFile_eq (h : Heap) (files : Files) (f g : FileM) : (Meas.isEqual files (.file f) (.file g)).2.2 = (fileVsFile h files f g).2 := by
  rw [Meas.isEqual, fileVsFile]
  split
  · rfl
  · obtain ⟨l1, l2⟩ := loadFile_eq h files f
    rcases hl : loadFile h files f with ⟨hp, l⟩
    rw [hl] at l1 l2
    simp only at l1 l2 ⊢
    rw [← l1, fileVsData_eq (hp.add (.use l.obj)) files g l.slot l2]
    rcases fileVsData (hp.add (.use l.obj)) files g l.slot with ⟨h4, s', e | v⟩ <;> rfl

/-! ## Programs -/

/-- The value of a measurement. -/
def Thing.value : Thing → Meas
  | .data s => .data s.d
  | .file f => .file f

/-- The values of a program. -/
def Pool.values (p : Pool) : Values := p.things.map (·.map Thing.value)

theorem Pool.values_get (p : Pool) (i : Nat) : p.values.get i = (p.get i).map Thing.value := by
  rw [Values.get, Pool.values, Pool.get, List.getElem?_map]
  cases p.things[i]? <;> rfl

theorem Pool.values_put (p : Pool) (h : Heap) (i : Nat) (t : Option Thing) : (p.put h i t).values = p.values.set i (t.map Thing.value) := by
  simp [Pool.values, Pool.put, List.map_set]

theorem Pool.values_putData (p : Pool) (h : Heap) (i : Nat) (s : Slot) : (p.putData h i s).values = p.values.set i (some (.data s.d)) := p.values_put h i _

theorem Values.set_get {l : Values} {i : Nat} {m : Meas} (h : l.get i = some m) : l.set i (some m) = l := by
  apply List.ext_getElem?
  intro n
  by_cases hn : i = n
  · subst hn
    rw [Values.get] at h
    cases e : l[i]? with
    | none => rw [e] at h; cases h
    | some v =>
      rw [e] at h
      simp only [Option.join] at h
      have hl : i < l.length := by
        by_contra hl
        rw [List.getElem?_eq_none (by omega)] at e
        cases e
      rw [List.getElem?_set_self hl]
      exact congrArg some h.symm
  · rw [List.getElem?_set_ne hn]

/-- Values and answers are those of the calls without memory. -/
theorem Pool.step_values (p : Pool) (op : Op) (hg : p.Good) : ((p.step op).1.values, (p.step op).2) = p.values.step op := by
  cases op with
  | new m => cases m <;> simp [Pool.step, Pool.new, Pool.values, Values.step, bare, Thing.value]
  | copy i =>
    simp only [Pool.step, Values.step, Pool.values_get]
    cases p.get i with
    | none => rfl
    | some t => cases t <;> simp [Pool.copy, Pool.values, bare, Thing.value, DataM.copy]
  | assign i j =>
    simp only [Pool.step, Values.step, Pool.values_get]
    cases hi : p.get i with
    | none => rfl
    | some s =>
      have hv : p.values.get i = some s.value := by rw [Pool.values_get, hi]; rfl
      cases p.get j with
      | none => rfl
      | some t =>
        cases s with
        | data s =>
          cases t with
          | data t =>
            simp only [Pool.assign, Option.map_some, Thing.value, assigned]
            split
            · rw [Pool.values_putData]
            · exact congrArg (·, _) (Values.set_get hv).symm
          | file g =>
            simp only [Pool.assign, Option.map_some, Thing.value, assigned]
            exact congrArg (·, _) (Values.set_get hv).symm
        | file f =>
          cases t with
          | data t =>
            simp only [Pool.assign, Option.map_some, Thing.value, assigned]
            exact congrArg (·, _) (Values.set_get hv).symm
          | file g =>
            simp only [Pool.assign, Option.map_some, Thing.value, assigned]
            rw [Pool.values_put]
            rfl
  | setName i n =>
    simp only [Pool.step, Values.step, Pool.values_get]
    cases hi : p.get i with
    | none => rfl
    | some t => cases t <;> simp [Pool.setName, Pool.values_putData, Pool.values_put, Thing.value, Meas.setName]
  | setContent i c =>
    simp only [Pool.step, Values.step, Pool.values_get]
    cases hi : p.get i with
    | none => rfl
    | some t => cases t <;> simp [Pool.setContent, Pool.values_putData, Pool.values_put, Thing.value, withContent, Slot.setContent, Slot.delete, DataM.setContent]
  | setEncoding i e =>
    simp only [Pool.step, Values.step, Pool.values_get]
    cases hi : p.get i with
    | none => rfl
    | some t =>
      cases t with
      | data s => simp [Pool.values_putData, Thing.value, onData]
      | file f =>
        have hv : p.values.get i = some (.file f) := by rw [Pool.values_get, hi]; rfl
        simp only [Option.map_some, Thing.value, onData]
        rw [Values.set_get hv]
  | setCompression i e =>
    simp only [Pool.step, Values.step, Pool.values_get]
    cases hi : p.get i with
    | none => rfl
    | some t =>
      cases t with
      | data s => simp [Pool.values_putData, Thing.value, onData]
      | file f =>
        have hv : p.values.get i = some (.file f) := by rw [Pool.values_get, hi]; rfl
        simp only [Option.map_some, Thing.value, onData]
        rw [Values.set_get hv]
  | read i =>
    simp only [Pool.step, Values.step, Pool.values_get]
    cases hi : p.get i with
    | none => rfl
    | some t =>
      cases t with
      | data s =>
        simp only [Option.map_some, Thing.value, Pool.values_putData]
        rw [Slot.touch_data p.heap s (hg i s hi)]
        cases (s.touch p.heap).2.2 <;> rfl
      | file f => rfl
  | write i bytes =>
    simp only [Pool.step, Values.step, Pool.values_get]
    cases hi : p.get i with
    | none => rfl
    | some t =>
      cases t with
      | data s =>
        simp only [Option.map_some, Thing.value, Pool.values_putData]
        rw [Slot.setData_eq p.heap s none bytes]
      | file f => rfl
  | transfer i j =>
    simp only [Pool.step, Values.step, Values.transfer, Pool.values_get]
    cases hi : p.get i with
    | none => rfl
    | some s =>
      cases s with
      | file f => cases p.get j with
        | none => rfl
        | some t => cases t <;> rfl
      | data s =>
        cases hj : p.get j with
        | none => rfl
        | some t =>
          cases t with
          | file g => rfl
          | data t =>
            simp only [Option.map_some, Thing.value, Pool.transfer]
            rw [Slot.touch_data p.heap t (hg j t hj)]
            rcases e1 : t.touch p.heap with ⟨h1, t1, e | u⟩
            · simp [Except.map, Pool.values_putData]
            · simp only [Except.map]
              rw [Slot.touch_again (hg j t hj) e1]
              simp only
              have e := Slot.setData_eq h1 (if i = j then t1 else s) t1.block (bytesOf t1.cells)
              have hd : (if i = j then t1 else s).d = if i = j then t1.d else s.d := by split <;> rfl
              rw [hd] at e
              rw [e, Pool.values_putData, Pool.values_putData]
  | compare files i j =>
    simp only [Pool.step, Values.step, Pool.values_get]
    cases hi : p.get i with
    | none => rfl
    | some s =>
      have hv : p.values.get i = some s.value := by rw [Pool.values_get, hi]; rfl
      cases hj : p.get j with
      | none => rfl
      | some t =>
        have hw : p.values.get j = some t.value := by rw [Pool.values_get, hj]; rfl
        cases s with
        | data s =>
          cases t with
          | data t =>
            simp only [Pool.compare, Option.map_some, Thing.value, Meas.isEqual]
            split
            · next hij =>
              subst hij
              rw [hi] at hj
              injection hj with hj
              injection hj with hj
              subst hj
              obtain ⟨c1, c2⟩ := s.compareSelf_eq p.heap (hg i s hi)
              rw [Pool.values_putData, c1, c2, List.set_set]
            · next hij =>
              rw [Slot.compare_eq p.heap s t (hg i s hi) (hg j t hj), Pool.values_putData, Pool.values_putData, List.set_comm _ _ hij]
          | file g =>
            simp only [Pool.compare, Option.map_some, Thing.value, Meas.isEqual]
            rw [fileVsData_eq p.heap files g s (hg i s hi), Pool.values_putData]
            rw [show p.values.set j (some (.file g)) = p.values from Values.set_get hw]
        | file f =>
          cases t with
          | data t =>
            have hij : j ≠ i := by rintro rfl; rw [hi] at hj; cases hj
            simp only [Pool.compare, Option.map_some, Thing.value, Meas.isEqual]
            rw [fileVsData_eq p.heap files f t (hg j t hj), Pool.values_putData, List.set_comm _ _ hij]
            rw [show p.values.set i (some (.file f)) = p.values from Values.set_get hv]
          | file g =>
            have e := fileVsFile_eq p.heap files f g
            have e1 : (Meas.isEqual files (.file f) (.file g)).1 = .file f := by rw [Meas.isEqual]; split <;> rfl
            have e2 : (Meas.isEqual files (.file f) (.file g)).2.1 = .file g := by rw [Meas.isEqual]; split <;> rfl
            simp only [Pool.compare, Option.map_some, Thing.value]
            rw [e1, e2, e, show p.values.set j (some (.file g)) = p.values from Values.set_get hw, show p.values.set i (some (.file f)) = p.values from Values.set_get hv]
            rfl
  | destroy i =>
    simp only [Pool.step, Values.step]
    cases hi : p.get i with
    | none =>
      simp only
      have : p.values.set i none = p.values := by
        apply List.ext_getElem?
        intro n
        by_cases hn : i = n
        · subst hn
          by_cases hl : i < p.values.length
          · rw [List.getElem?_set_self hl]
            have hv := p.values_get i
            rw [hi, Values.get, List.getElem?_eq_getElem hl] at hv
            rw [List.getElem?_eq_getElem hl]
            simp only [Option.join, Option.map_none] at hv
            exact congrArg some hv.symm
          · rw [List.getElem?_eq_none (by simp; omega), List.getElem?_eq_none (by omega)]
        · rw [List.getElem?_set_ne hn]
      rw [this]
    | some t => cases t <;> simp [Pool.destroy, Pool.values_put]

end Verif.Life
