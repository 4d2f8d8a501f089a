import Verif.Life.BlockProps

/-!
# C99: lost blocks, and pointers to data
-/

namespace Verif.Life
open Spec Verif.Measurement Verif.Base64

/-! ## Every measurement has its own block -/

theorem blockAt_some {ops : List Op} {i b : Nat} (h : blockAt ops i = some b) : ∃ s, (Pool.run {} ops).get i = some (.data s) ∧ s.block = some b := by
  rw [blockAt] at h
  split at h
  · next s hs => exact ⟨s, hs, h⟩
  · cases h

theorem mem_held {p : Pool} {i b : Nat} {s : Slot} (h : p.get i = some (.data s)) (hb : s.block = some b) : b ∈ held p.things := by
  rw [held, List.mem_flatMap]
  refine ⟨some (.data s), List.mem_of_getElem? (Pool.get_eq h), ?_⟩
  simp [blocks, hb]

/-- **C99, every measurement has its own block.** A measurement has a block exactly when it has data of its own, the block is allocated and not freed, and no two
measurements, a copy and its original among them, have the same one. -/
theorem C99_own_block (ops : List Op) (h : Proper ops) (i : Nat) :
    ((blockAt ops i).isSome = true ↔ ∃ d, (values ops).get i = some (.data d) ∧ d.data.isSome = true) ∧
    ∀ b, blockAt ops i = some b → Leaked (memory ops) b ∧ ∀ j, j ≠ i → blockAt ops j ≠ some b := by
  refine ⟨?_, fun b hb => ⟨?_, fun j hj hb' => ?_⟩⟩
  · have hg := Pool.run_good ops {} Pool.empty_good
    rw [← values_eq, Pool.values_get, blockAt]
    cases ht : (Pool.run {} ops).get i with
    | none => simp
    | some t =>
      cases t with
      | file f => simp [Thing.value]
      | data s =>
        simp only [Option.map_some, Thing.value, Option.some.injEq, Meas.data.injEq, exists_eq_left']
        rw [hg i s ht]
  · obtain ⟨s, hs, hb⟩ := blockAt_some hb
    exact (run_inv ops h).live b (mem_held hs hb)
  · obtain ⟨s, hs, hb⟩ := blockAt_some hb
    obtain ⟨t, ht, hb'⟩ := blockAt_some hb'
    obtain ⟨o, h1, -⟩ := held_set2 _ i j _ _ (Ne.symm hj) (Pool.get_eq hs) (Pool.get_eq ht)
    have hn := h1.nodup_iff.mp (run_inv ops h).nodup
    simp [blocks, hb, hb'] at hn

/-! ## Lost blocks -/

/-- There is a block nobody points to. -/
def Lost (c : C) : Prop := ∃ b, Leaked c.log b ∧ b ∉ c.held

theorem Step.lost {T : Prop} {a b : C} (h : Step T a b) (hi : Inv a) (hl : Lost a) : Lost b := by
  obtain ⟨i, h1, h2⟩ := hl
  exact ⟨i, h.keep hi i h1 h2⟩

theorem lost_drop {n : Nat} {l : List Ev} {h o : List Nat} {i : Nat} (hi : Inv ⟨n, l, h⟩) (hp : h.Perm (i :: o)) {h' : List Nat} (hs : h'.Sublist o) : Lost ⟨n, l, h'⟩ := by
  refine ⟨i, hi.live i (hp.mem_iff.mpr (List.mem_cons_self ..)), fun hm => ?_⟩
  exact (List.nodup_cons.mp (hp.nodup_iff.mp hi.nodup)).1 (hs.subset hm)

theorem fileVsData_lost (h : Heap) (files : Files) (f : FileM) (s : Slot) (o : List Nat) (he : (fileVsData h files f s).2.2.isOk = false)
    (hi : Inv (h.cfg (s.block.toList ++ o))) : Lost ((fileVsData h files f s).1.cfg ((fileVsData h files f s).2.1.block.toList ++ o)) := by
  rw [fileVsData] at he ⊢
  split at he
  · cases he
  · next hne =>
    rw [if_neg hne]
    have h1 := loadFile_step h files f (s.block.toList ++ o)
    rcases hl : loadFile h files f with ⟨hp, l⟩
    rw [hl] at h1 he
    simp only at h1 he ⊢
    have h2 : Step True (hp.cfg (l.obj :: (l.slot.block.toList ++ (s.block.toList ++ o)))) ((hp.add (.use l.obj)).cfg (l.obj :: (l.slot.block.toList ++ (s.block.toList ++ o)))) :=
      step_use _ _ _ _ (List.mem_cons_self ..)
    have p : ∀ (s t : Slot), (l.obj :: (t.block.toList ++ (s.block.toList ++ o))).Perm (s.block.toList ++ (t.block.toList ++ (l.obj :: o))) := by
      intro s t
      refine List.Perm.trans ?_ (List.Perm.append_left _ List.perm_middle.symm)
      refine List.Perm.trans ?_ List.perm_middle.symm
      refine List.Perm.cons _ ?_
      rw [← List.append_assoc, ← List.append_assoc]
      exact List.perm_append_comm.append_right o
    have c := s.compare_call (hp.add (.use l.obj)) l.slot
    have h3 := (h1.trans' h2).trans' ((step_perm _ _ (p s l.slot)).trans' (c.step (l.obj :: o)))
    rcases hc : s.compare (hp.add (.use l.obj)) l.slot with ⟨h4, s', t', e | v⟩
    · rw [hc] at h3
      refine lost_drop (h3.inv hi) (p s' t').symm ?_
      exact (List.sublist_append_right _ _)
    · rw [hc] at he
      cases he

theorem fileVsFile_lost (h : Heap) (files : Files) (f g : FileM) (o : List Nat) (he : (fileVsFile h files f g).2.isOk = false) (hi : Inv (h.cfg o)) :
    Lost ((fileVsFile h files f g).1.cfg o) := by
  rw [fileVsFile] at he ⊢
  split at he
  · cases he
  · next hne =>
    rw [if_neg hne]
    have h1 := loadFile_step h files f o
    rcases hl : loadFile h files f with ⟨hp, l⟩
    rw [hl] at h1 he
    simp only at h1 he ⊢
    have h2 : Step True (hp.cfg (l.obj :: (l.slot.block.toList ++ o))) ((hp.add (.use l.obj)).cfg (l.obj :: (l.slot.block.toList ++ o))) :=
      step_use _ _ _ _ (List.mem_cons_self ..)
    have h3 := (h1.trans' h2).trans' (step_perm (h' := l.slot.block.toList ++ l.obj :: o) _ _ List.perm_middle.symm)
    obtain ⟨c, -⟩ := fileVsData_step (hp.add (.use l.obj)) files g l.slot (l.obj :: o)
    have h4 := h3.trans c
    rcases hc : fileVsData (hp.add (.use l.obj)) files g l.slot with ⟨h4', t', e | v⟩
    · rw [hc] at h4
      simp only at h4
      exact lost_drop (h4.inv hi) List.perm_middle (List.sublist_append_right _ _)
    · rw [hc] at he
      cases he

/-- Something is lost by a call exactly when it assigns over data, or compares with a file and throws. -/
def Loses (l : Values) (op : Op) : Prop := AssignsOver l op ∨ FileThrows l op

theorem Pool.get_value {p : Pool} {i : Nat} {t : Thing} (h : p.get i = some t) : p.values.get i = some t.value := by rw [Pool.values_get, h]; rfl

theorem Pool.get_data {p : Pool} {i : Nat} {d : DataM} (h : p.values.get i = some (.data d)) : ∃ s, p.get i = some (.data s) ∧ s.d = d := by
  rw [Pool.values_get] at h
  cases ht : p.get i with
  | none => rw [ht] at h; cases h
  | some t =>
    rw [ht] at h
    cases t with
    | file f => cases h
    | data s =>
      simp only [Option.map_some, Thing.value, Option.some.injEq, Meas.data.injEq] at h
      exact ⟨s, rfl, h⟩

theorem Pool.get_file {p : Pool} {i : Nat} {f : FileM} (h : p.values.get i = some (.file f)) : p.get i = some (.file f) := by
  rw [Pool.values_get] at h
  cases ht : p.get i with
  | none => rw [ht] at h; cases h
  | some t =>
    rw [ht] at h
    cases t with
    | file f => simpa [Thing.value] using h
    | data s => cases h

theorem Pool.step_loses (p : Pool) (op : Op) (hg : p.Good) (hi : Inv p.cfg) (hl : Loses p.values op) : Lost (p.step op).1.cfg := by
  rcases hl with ⟨i, j, x, y, rfl, hx, hy, hk, hd⟩ | ⟨files, i, j, f, rfl, he, g, hgf⟩
  · obtain ⟨s, hs, rfl⟩ := Pool.get_data hx
    obtain ⟨t, ht, rfl⟩ := Pool.get_data hy
    simp only [Pool.step, hs, ht, Pool.assign, if_pos hk]
    obtain ⟨o, h1, h2⟩ := held_set p.things i _ (Pool.get_eq hs)
    have h2 := h2 (some (.data ⟨s.d.assign t.d, none⟩))
    rw [← hg i s hs] at hd
    obtain ⟨b, hb⟩ := Option.isSome_iff_exists.mp hd
    simp only [blocks, hb, Option.toList, List.cons_append, List.nil_append] at h1 h2
    have := lost_drop (h := held p.things) (h' := o) hi h1 (List.Sublist.refl _)
    obtain ⟨b, hb1, hb2⟩ := this
    exact ⟨b, hb1, fun hm => hb2 (h2.mem_iff.mp hm)⟩
  · have e := congrArg Prod.snd (p.step_values (.compare files i j) hg)
    simp only at e
    rw [he] at e
    cases ha : p.get i with
    | none =>
      simp only [Pool.step, ha] at e
      cases e
    | some s =>
      cases hb : p.get j with
      | none =>
        simp only [Pool.step, ha, hb] at e
        cases e
      | some t =>
        simp only [Pool.step, ha, hb] at e ⊢
        have e : ((p.compare files i j s t).2).isOk = false := by
          cases hc : (p.compare files i j s t).2 with
          | error f => rfl
          | ok v => rw [hc] at e; cases e
        cases s with
        | data s =>
          cases t with
          | data t =>
            rcases hgf with h | h
            · rw [Pool.get_value ha] at h; cases h
            · rw [Pool.get_value hb] at h; cases h
          | file g =>
            obtain ⟨o, h1, h2⟩ := held_set p.things i _ (Pool.get_eq ha)
            have hi' := (step_perm p.heap.next p.heap.log h1).inv hi
            have := fileVsData_lost p.heap files g s o e hi'
            obtain ⟨b, hb1, hb2⟩ := this
            exact ⟨b, hb1, fun hm => hb2 ((h2 (some (.data (fileVsData p.heap files g s).2.1))).mem_iff.mp hm)⟩
        | file f =>
          cases t with
          | data t =>
            obtain ⟨o, h1, h2⟩ := held_set p.things j _ (Pool.get_eq hb)
            have hi' := (step_perm p.heap.next p.heap.log h1).inv hi
            have := fileVsData_lost p.heap files f t o e hi'
            obtain ⟨b, hb1, hb2⟩ := this
            exact ⟨b, hb1, fun hm => hb2 ((h2 (some (.data (fileVsData p.heap files f t).2.1))).mem_iff.mp hm)⟩
          | file g => exact fileVsFile_lost p.heap files f g _ e hi

theorem Pool.keeps_of_not_loses (p : Pool) (op : Op) (hg : p.Good) (hl : ¬ Loses p.values op) : KeepsBlocks p op := by
  refine ⟨fun i j s t ho hs ht hk => ?_, fun files i j g ho hf => ?_⟩
  · cases hb : s.block with
    | none => rfl
    | some b =>
      refine absurd (Or.inl ⟨i, j, s.d, t.d, ho, Pool.get_value hs, Pool.get_value ht, hk, ?_⟩) hl
      rw [← hg i s hs, hb]
      rfl
  · cases hr : (p.step op).2 with
    | ok v => rfl
    | error f =>
      refine absurd (Or.inr ⟨files, i, j, f, ho, ?_, g, ?_⟩) hl
      · rw [← p.step_values op hg]
        exact hr
      · rcases hf with hf | hf
        · exact Or.inl (Pool.get_value hf)
        · exact Or.inr (Pool.get_value hf)

/-- No call loses anything. -/
def ThriftyFrom (l : Values) (ops : List Op) : Prop := ∀ before op after, ops = before ++ op :: after → ¬ Loses (l.run before) op

theorem Pool.saves (ops : List Op) : ∀ p : Pool, p.Good → ThriftyFrom p.values ops → Saves p ops := by
  induction ops with
  | nil => intro p _ _; trivial
  | cons op ops ih =>
    intro p hg ht
    refine ⟨p.keeps_of_not_loses op hg (ht [] op ops rfl), ih _ (p.step_good op hg) ?_⟩
    intro before x after he
    have e := congrArg Prod.fst (p.step_values op hg)
    simp only at e
    rw [e]
    exact ht (op :: before) x after (by rw [he]; rfl)

/-! ## The end -/

theorem Pool.step_destroy (p : Pool) (i j : Nat) : ((p.step (.destroy i)).1.get j = if i = j then none else p.get j) ∧ (p.step (.destroy i)).1.things.length = p.things.length := by
  simp only [Pool.step]
  cases hi : p.get i with
  | none =>
    by_cases hij : i = j
    · subst hij; simp [hi]
    · simp [hij]
  | some t =>
    have hl := Pool.lt_of_get hi
    cases t <;> simp only [Pool.destroy, Pool.get_put] <;> refine ⟨?_, by simp [Pool.put]⟩ <;> by_cases hij : i = j <;> simp [hij, hl]
    · intro h; omega
    · intro h; omega

theorem Pool.run_destroyAll (n : Nat) (p : Pool) : (∀ j, j < n → (p.run (destroyAll n)).get j = none) ∧ (p.run (destroyAll n)).things.length = p.things.length := by
  induction n with
  | zero => exact ⟨fun j h => by omega, rfl⟩
  | succ n ih =>
    have e : destroyAll (n + 1) = destroyAll n ++ [.destroy n] := by simp [destroyAll, List.range_succ]
    rw [e, Pool.run_append]
    simp only [Pool.run]
    refine ⟨fun j hj => ?_, ?_⟩
    · rw [(Pool.step_destroy _ n j).1]
      split
      · rfl
      · exact ih.1 j (by omega)
    · rw [(Pool.step_destroy _ n 0).2]
      exact ih.2

theorem held_nil {p : Pool} (h : ∀ j, p.get j = none) : held p.things = [] := by
  rw [held, List.flatMap_eq_nil_iff]
  intro t ht
  obtain ⟨j, hj, rfl⟩ := List.mem_iff_getElem.mp ht
  have := h j
  rw [Pool.get, List.getElem?_eq_getElem hj] at this
  have : p.things[j] = none := this
  rw [this]
  rfl

theorem destroyAll_mem {n : Nat} {before after : List Op} {op : Op} (h : destroyAll n = before ++ op :: after) : ∃ i, op = .destroy i := by
  have : op ∈ destroyAll n := by rw [h]; simp
  rw [destroyAll, List.mem_map] at this
  obtain ⟨i, -, rfl⟩ := this
  exact ⟨i, rfl⟩

theorem append_cases {α : Type} {l l' before after : List α} {x : α} (h : l ++ l' = before ++ x :: after) :
    (∃ r, l = before ++ x :: r) ∨ ∃ r, l' = r ++ x :: after ∧ before = l ++ r := by
  rcases List.append_eq_append_iff.mp h with ⟨r, h1, h2⟩ | ⟨r, h1, h2⟩
  · exact Or.inr ⟨r, h2, h1⟩
  · cases r with
    | nil =>
      simp only [List.append_nil, List.nil_append] at h1 h2
      exact Or.inr ⟨[], by simp [h2], by simp [h1]⟩
    | cons y r =>
      injection h2 with h2 h3
      subst h2
      exact Or.inl ⟨r, h1⟩

theorem proper_destroyAll {ops : List Op} (h : Proper ops) (n : Nat) : Proper (ops ++ destroyAll n) := by
  intro before op after he ho
  rcases append_cases he with ⟨r, hr⟩ | ⟨r, hr, -⟩
  · exact h before op r hr ho
  · obtain ⟨i, rfl⟩ := destroyAll_mem hr
    obtain ⟨_, _, _, _, h1, _⟩ := ho
    cases h1

theorem proper_prefix {ops ops' : List Op} (h : Proper (ops ++ ops')) : Proper ops := by
  intro before op after he
  exact h before op (after ++ ops') (by rw [he]; simp)

theorem proper_suffix {ops ops' : List Op} (h : Proper (ops ++ ops')) : ProperFrom (values ops) ops' := by
  rw [properFrom_iff]
  intro before op after he
  have := h (ops ++ before) op after (by rw [he]; simp)
  rw [values, Values.run_append] at this
  exact this

/-- **C99, lost blocks.** After all measurements were destroyed some of their memory is still allocated exactly when the program assigned to a measurement that had
data of its own, or compared a file and the comparison ended by an exception. -/
theorem C99_lost_iff (ops : List Op) (h : Proper ops) (n : Nat) (hn : (values ops).length ≤ n) :
    (∃ b, Leaked (memory (ops ++ destroyAll n)) b) ↔
      ∃ before op after, ops = before ++ op :: after ∧ (AssignsOver (values before) op ∨ FileThrows (values before) op) := by
  have hp := proper_destroyAll h n
  constructor
  · rintro ⟨b, hb⟩
    by_contra hc
    have ht : ThriftyFrom [] (ops ++ destroyAll n) := by
      intro before op after he hl
      rcases append_cases he with ⟨r, hr⟩ | ⟨r, hr, -⟩
      · exact hc ⟨before, op, r, hr, hl⟩
      · obtain ⟨i, rfl⟩ := destroyAll_mem hr
        rcases hl with ⟨_, _, _, _, h1, _⟩ | ⟨_, _, _, _, h1, _⟩ <;> cases h1
    have hs := Pool.saves _ {} Pool.empty_good ht
    have hstep := Pool.run_step _ {} Pool.empty_good ((proper_iff _).mp hp)
    have hm := hstep.tight hs empty_inv (fun i hi => by simp [Pool.cfg, Heap.cfg, Leaked] at hi) b hb
    have hd := Pool.run_destroyAll n (Pool.run {} ops)
    rw [← Pool.run_append] at hd
    have hlen : (Pool.run {} ops).things.length ≤ n := by
      have := values_eq ops
      rw [← this, Pool.values, List.length_map] at hn
      exact hn
    have hnil : held (Pool.run {} (ops ++ destroyAll n)).things = [] := by
      refine held_nil fun j => ?_
      by_cases hj : j < n
      · exact hd.1 j hj
      · rw [Pool.get, List.getElem?_eq_none (by rw [hd.2]; omega)]
        rfl
    simp only [Pool.cfg, Heap.cfg, hnil] at hm
    cases hm
  · rintro ⟨before, op, after, rfl, hl⟩
    have hpb : Proper before := proper_prefix h
    have hinv := run_inv before hpb
    have hg := Pool.run_good before {} Pool.empty_good
    have hlost := Pool.step_loses _ op hg hinv (by rw [values_eq]; exact hl)
    have e : before ++ op :: after ++ destroyAll n = (before ++ [op]) ++ (after ++ destroyAll n) := by simp
    rw [e] at hp ⊢
    have hr : (Pool.run {} (before ++ [op])) = ((Pool.run {} before).step op).1 := by rw [Pool.run_append]; rfl
    have hinv2 := run_inv _ (proper_prefix hp)
    have hstep := Pool.run_step (after ++ destroyAll n) (Pool.run {} (before ++ [op])) (Pool.run_good _ {} Pool.empty_good) (by rw [values_eq]; exact proper_suffix hp)
    rw [← hr] at hlost
    obtain ⟨b, hb, -⟩ := hstep.lost hinv2 hlost
    rw [← Pool.run_append] at hb
    exact ⟨b, hb⟩

end Verif.Life
