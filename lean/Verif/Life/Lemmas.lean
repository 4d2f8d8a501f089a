import Verif.Life.Model
import Mathlib.Data.List.Perm.Basic

/-!
# Invariants of the heap
-/

namespace Verif.Life
open Spec Verif.Measurement Verif.Regression Verif.Xml

/-- The next number, the history, the objects pointed to. -/
structure C where
  next : Nat
  log : List Ev
  held : List Nat

/-- What holds all the time. -/
structure Inv (c : C) : Prop where
  valid : Valid c.log
  bound : ∀ i, .create i ∈ c.log → i < c.next
  nodup : c.held.Nodup
  live : ∀ i ∈ c.held, Leaked c.log i

/-- A part of an execution; `T`: nothing is lost in it. -/
structure Step (T : Prop) (a b : C) : Prop where
  inv : Inv a → Inv b
  keep : Inv a → ∀ i, Leaked a.log i → i ∉ a.held → Leaked b.log i ∧ i ∉ b.held
  tight : T → Inv a → (∀ i, Leaked a.log i → i ∈ a.held) → ∀ i, Leaked b.log i → i ∈ b.held
  created : ∀ i, .create i ∈ a.log → .create i ∈ b.log

theorem Step.refl (T : Prop) (a : C) : Step T a a := ⟨id, fun _ _ h h' => ⟨h, h'⟩, fun _ _ h => h, fun _ => id⟩

theorem Step.trans {T U : Prop} {a b c : C} (h : Step T a b) (h' : Step U b c) : Step (T ∧ U) a c :=
  ⟨h'.inv ∘ h.inv, fun ia i l n => h'.keep (h.inv ia) i (h.keep ia i l n).1 (h.keep ia i l n).2,
    fun t ia l => h'.tight t.2 (h.inv ia) (h.tight t.1 ia l), fun i hi => h'.created i (h.created i hi)⟩

theorem Step.imp {T U : Prop} {a b : C} (h : Step T a b) (hu : U → T) : Step U a b :=
  ⟨h.inv, h.keep, fun u => h.tight (hu u), h.created⟩

theorem Step.trans' {T : Prop} {a b c : C} (h : Step T a b) (h' : Step T b c) : Step T a c := (h.trans h').imp fun t => ⟨t, t⟩

theorem valid_snoc {l : List Ev} {e : Ev} (h : Valid l) (he : Allowed l e) : Valid (l ++ [e]) := by
  intro before e' after heq
  rcases List.eq_nil_or_concat after with rfl | ⟨after', x, rfl⟩
  · have := List.append_inj_right' heq rfl
    have h2 := List.append_inj_left' heq rfl
    injection this with this
    subst h2 this
    exact he
  · rw [List.concat_eq_append] at heq
    have : l ++ [e] = (before ++ e' :: after') ++ [x] := by rw [heq]; simp
    have h2 := List.append_inj_left' this rfl
    exact h before e' after' h2

theorem step_create (n : Nat) (l : List Ev) (h : List Nat) : Step True ⟨n, l, h⟩ ⟨n + 1, l ++ [.create n], n :: h⟩ := by
  have hl : ∀ i, Leaked l i → Leaked (l ++ [.create n]) i := fun i ⟨a, b⟩ => ⟨by simp [a], by simpa using b⟩
  have hl' : ∀ i, Leaked (l ++ [.create n]) i → Leaked l i ∨ i = n := by
    rintro i ⟨a, b⟩
    simp at a b
    rcases a with a | a
    · exact Or.inl ⟨a, b⟩
    · exact Or.inr a
  refine ⟨fun i => ⟨valid_snoc i.valid ?_, ?_, ?_, ?_⟩, ?_, ?_, ?_⟩
  · intro hc; exact absurd (i.bound n hc) (Nat.lt_irrefl n)
  · intro j hj
    simp only [List.mem_append, List.mem_singleton, Ev.create.injEq] at hj
    rcases hj with hj | rfl
    · exact Nat.lt_succ_of_lt (i.bound j hj)
    · exact Nat.lt_succ_self _
  · exact List.nodup_cons.mpr ⟨fun hm => absurd (i.bound n (i.live n hm).1) (Nat.lt_irrefl n), i.nodup⟩
  · intro j hj
    rcases List.mem_cons.mp hj with rfl | hj
    · refine ⟨by simp, ?_⟩
      simp only [List.mem_append, List.mem_singleton, reduceCtorEq, or_false]
      intro hd
      obtain ⟨before, after, e⟩ := List.append_of_mem hd
      have := (i.valid before _ after e).1
      exact absurd (i.bound j (by rw [e]; simp [this])) (Nat.lt_irrefl j)
    · exact hl j (i.live j hj)
  · intro i j hj hn
    refine ⟨hl j hj, fun hm => ?_⟩
    rcases List.mem_cons.mp hm with rfl | hm
    · exact absurd (i.bound j hj.1) (Nat.lt_irrefl j)
    · exact hn hm
  · intro _ i ht j hj
    rcases hl' j hj with hj | rfl
    · exact List.mem_cons_of_mem _ (ht j hj)
    · exact List.mem_cons_self ..
  · intro i hi; exact List.mem_append_left _ hi

theorem step_use (n : Nat) (l : List Ev) (h : List Nat) (i : Nat) (hi : i ∈ h) : Step True ⟨n, l, h⟩ ⟨n, l ++ [.use i], h⟩ := by
  have hl : ∀ j, Leaked (l ++ [.use i]) j ↔ Leaked l j := fun j => by simp [Leaked]
  refine ⟨fun v => ⟨valid_snoc v.valid (v.live i hi), fun j hj => v.bound j (by simpa using hj), v.nodup, fun j hj => (hl j).mpr (v.live j hj)⟩,
    fun _ j a b => ⟨(hl j).mpr a, b⟩, fun _ _ t j hj => t j ((hl j).mp hj), fun j hj => List.mem_append_left _ hj⟩

theorem step_destroy (n : Nat) (l : List Ev) (h : List Nat) (i : Nat) : Step True ⟨n, l, i :: h⟩ ⟨n, l ++ [.destroy i], h⟩ := by
  have hl : ∀ j, Leaked (l ++ [.destroy i]) j ↔ Leaked l j ∧ j ≠ i := fun j => by simp [Leaked, and_assoc]
  refine ⟨fun v => ⟨valid_snoc v.valid (v.live i (List.mem_cons_self ..)), fun j hj => v.bound j (by simpa using hj), (List.nodup_cons.mp v.nodup).2, fun j hj => (hl j).mpr ⟨v.live j (List.mem_cons_of_mem _ hj), ?_⟩⟩,
    fun _ j a b => ⟨(hl j).mpr ⟨a, fun h => b (by simp [h])⟩, fun h => b (List.mem_cons_of_mem _ h)⟩, fun _ _ t j hj => ?_, fun j hj => List.mem_append_left _ hj⟩
  · rintro rfl; exact (List.nodup_cons.mp v.nodup).1 hj
  · obtain ⟨a, b⟩ := (hl j).mp hj
    rcases List.mem_cons.mp (t j a) with h | h
    · exact absurd h b
    · exact h

theorem step_perm (n : Nat) (l : List Ev) {h h' : List Nat} (p : h.Perm h') : Step True ⟨n, l, h⟩ ⟨n, l, h'⟩ :=
  ⟨fun v => ⟨v.valid, v.bound, p.nodup_iff.mp v.nodup, fun i hi => v.live i (p.mem_iff.mpr hi)⟩,
    fun _ _ a b => ⟨a, fun h => b (p.mem_iff.mpr h)⟩, fun _ _ t i hi => p.mem_iff.mp (t i hi), fun _ => id⟩

theorem step_drop (n : Nat) (l : List Ev) {h h' : List Nat} (p : h'.Sublist h) : Step (h' = h) ⟨n, l, h⟩ ⟨n, l, h'⟩ :=
  ⟨fun v => ⟨v.valid, v.bound, p.nodup v.nodup, fun i hi => v.live i (p.subset hi)⟩,
    fun _ _ a b => ⟨a, fun h => b (p.subset h)⟩, fun e _ t i hi => by subst e; exact t i hi, fun _ => id⟩

/-- The objects pointed to by the object, and others. -/
def G.cfg (g : G) (others : List Nat) : C := ⟨g.next, g.log, others ++ (g.input ++ (g.os.toList ++ g.is.toList))⟩

/-- The pointers of the object are the same. -/
def Same (g g' : G) : Prop := g'.input = g.input ∧ g'.os = g.os ∧ g'.is = g.is

theorem Same.refl (g : G) : Same g g := ⟨rfl, rfl, rfl⟩
theorem Same.trans {a b c : G} (h : Same a b) (h' : Same b c) : Same a c := ⟨h'.1.trans h.1, h'.2.1.trans h.2.1, h'.2.2.trans h.2.2⟩

theorem G.useOpt_step (g : G) (p : Option Nat) (o : List Nat) (hp : ∀ i, p = some i → i ∈ (g.cfg o).held) : Step True (g.cfg o) ((g.useOpt p).cfg o) ∧ Same g (g.useOpt p) := by
  cases p with
  | none => exact ⟨.refl _ _, .refl g⟩
  | some i => exact ⟨step_use _ _ _ i (hp i rfl), rfl, rfl, rfl⟩

theorem G.useOs_step (g : G) (o : List Nat) : Step True (g.cfg o) ((g.useOpt g.os).cfg o) ∧ Same g (g.useOpt g.os) :=
  g.useOpt_step _ o fun i hi => by simp [G.cfg, hi]

theorem G.useIs_step (g : G) (o : List Nat) : Step True (g.cfg o) ((g.useOpt g.is).cfg o) ∧ Same g (g.useOpt g.is) :=
  g.useOpt_step _ o fun i hi => by simp [G.cfg, hi]

/-! ## The reader -/

theorem G.cfg_eq {g g' : G} (h : Same g g') (o : List Nat) : g'.cfg o = ⟨g'.next, g'.log, (g.cfg o).held⟩ := by
  obtain ⟨a, b, c⟩ := h
  simp only [G.cfg, a, b, c]

/-- The number of `type` attributes. -/
def types (attrs : List (Str × Str)) : Nat := (attrs.filter fun a => a.1 = b!"type").length

theorem traceCreate_step (attrs : List (Str × Str)) : ∀ (g : G) (m : Option Nat) (o : List Nat),
    Step (types attrs + m.toList.length ≤ 1) (g.cfg (m.toList ++ o)) ((traceCreate attrs g m).1.cfg ((traceCreate attrs g m).2.toList ++ o)) ∧
      Same g (traceCreate attrs g m).1 := by
  induction attrs with
  | nil => intro g m o; exact ⟨.refl _ _, .refl g⟩
  | cons a rest ih =>
    intro g m o
    obtain ⟨a, v⟩ := a
    rw [traceCreate]
    split
    · next ha =>
      have hty : types ((a, v) :: rest) = types rest + 1 := by simp [types, ha]
      obtain ⟨h1, h2⟩ := ih g.create (some g.next) o
      refine ⟨?_, Same.trans (⟨rfl, rfl, rfl⟩ : Same g g.create) h2⟩
      have hc : Step True (g.cfg (m.toList ++ o)) (g.create.cfg ((some g.next).toList ++ (m.toList ++ o))) := step_create _ _ _
      have hd : Step (m = none) (g.create.cfg ((some g.next).toList ++ (m.toList ++ o))) (g.create.cfg ((some g.next).toList ++ o)) := by
        refine (step_drop g.create.next g.create.log ?_).imp ?_
        · simp
        · rintro rfl; simp
      refine ((hc.trans hd).trans h1).imp fun hle => ?_
      rw [hty] at hle
      cases m with
      | none => exact ⟨⟨trivial, rfl⟩, by simp at hle ⊢; omega⟩
      | some i => simp at hle
    · next ha =>
      have hty : types ((a, v) :: rest) = types rest := by simp [types, ha]
      rw [hty]
      exact ih g m o

theorem traceAttrs_step (attrs : List (Str × Str)) : ∀ (g : G) (m : Option Nat) (o : List Nat),
    Step True (g.cfg (m.toList ++ o)) ((traceAttrs attrs g m).cfg (m.toList ++ o)) ∧ Same g (traceAttrs attrs g m) := by
  induction attrs with
  | nil => intro g m o; exact ⟨.refl _ _, .refl g⟩
  | cons a rest ih =>
    intro g m o
    obtain ⟨a, v⟩ := a
    rw [traceAttrs]
    split
    · obtain ⟨h1, h2⟩ := g.useOpt_step m (m.toList ++ o) fun i hi => by simp [G.cfg, hi]
      obtain ⟨h3, h4⟩ := ih (g.useOpt m) m o
      exact ⟨h1.trans' h3, h2.trans h4⟩
    · exact ih g m o

/-- The objects of the reader. -/
def RG.held (r : RG) : List Nat := r.m.toList ++ r.list

/-- No element has two `type` attributes. -/
def OneType : Event → Prop
  | .start _ attrs => types attrs ≤ 1
  | _ => True

theorem traceEvent_step (pd : ParseData) (e : Event) (g : G) (r : RG) (hm : r.m.isSome = pd.m.isSome) :
    Step (OneType e) (g.cfg r.held) ((traceEvent pd e g r).1.cfg (traceEvent pd e g r).2.held) ∧ Same g (traceEvent pd e g r).1 := by
  cases e with
  | text t => exact ⟨.refl _ _, .refl g⟩
  | stop n =>
    simp only [traceEvent, traceStop]
    cases hr : r.m with
    | none => exact ⟨.refl _ _, .refl g⟩
    | some i =>
      simp only
      split
      · refine ⟨?_, rfl, rfl, rfl⟩
        have h1 : Step True (g.cfg r.held) ((g.add (.use i)).cfg r.held) := step_use _ _ _ i (by simp [RG.held, hr])
        have h2 : Step True ((g.add (.use i)).cfg r.held) ((g.add (.use i)).cfg (RG.held ⟨none, r.list ++ [i]⟩)) := by
          refine step_perm _ _ (List.Perm.append_right _ ?_)
          simp only [RG.held, hr, Option.toList]
          exact List.perm_append_comm
        exact (h1.trans' h2).imp fun _ => trivial
      · refine ⟨?_, rfl, rfl, rfl⟩
        have h1 : Step True (g.cfg r.held) ((g.add (.destroy i)).cfg (RG.held ⟨none, r.list⟩)) := by
          simp only [G.cfg, RG.held, hr, Option.toList, List.cons_append, List.nil_append]
          exact step_destroy _ _ _ i
        exact h1.imp fun _ => trivial
  | start el attrs =>
    simp only [traceEvent, traceStart]
    split
    · exact ⟨.refl _ _, .refl g⟩
    · next hn =>
      have hr : r.m = none := by
        cases h : r.m with
        | none => rfl
        | some i => rw [h] at hm; exact absurd hm.symm hn
      split
      · exact ⟨.refl _ _, .refl g⟩
      · split
        · split
          · obtain ⟨h1, h2⟩ := traceCreate_step attrs g none r.list
            obtain ⟨h3, h4⟩ := traceAttrs_step attrs (traceCreate attrs g none).1 (traceCreate attrs g none).2 r.list
            refine ⟨?_, h2.trans h4⟩
            have e1 : r.held = (none : Option Nat).toList ++ r.list := by simp [RG.held, hr]
            rw [e1]
            exact (h1.trans h3).imp fun h => ⟨by simpa [OneType] using h, trivial⟩
          · split
            · refine ⟨?_, rfl, rfl, rfl⟩
              have h1 : Step True (g.cfg r.held) (g.create.cfg (RG.held ⟨some g.next, r.list⟩)) := by
                have := step_create g.next g.log (g.cfg r.held).held
                simpa [G.cfg, RG.held, hr, G.create] using this
              have h2 : Step True (g.create.cfg (RG.held ⟨some g.next, r.list⟩)) ((g.create.add (.use g.next)).cfg (RG.held ⟨some g.next, r.list⟩)) :=
                step_use _ _ _ g.next (by simp [RG.held])
              exact (h1.trans' h2).imp fun _ => trivial
            · exact ⟨.refl _ _, .refl g⟩
        · exact ⟨.refl _ _, .refl g⟩

end Verif.Life
