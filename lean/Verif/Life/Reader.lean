import Verif.Life.Lemmas

/-!
# The objects of the reader
-/

namespace Verif.Life
open Spec Verif.Measurement Verif.Regression Verif.Xml

/-- The pointers of the reader agree with what the reader does. -/
structure RSync (pd : ParseData) (r : RG) : Prop where
  m : r.m.isSome = pd.m.isSome
  list : r.list.length = pd.measurements.length

theorem createLoop_sync (attrs : List (Str × Str)) : ∀ (g : G) (m : Option Nat) (dm : Option DataM), m.isSome = dm.isSome →
    (traceCreate attrs g m).2.isSome = (createLoop attrs dm).isSome := by
  induction attrs with
  | nil => intro g m dm h; exact h
  | cons a rest ih =>
    intro g m dm h
    obtain ⟨a, v⟩ := a
    rw [traceCreate, createLoop]
    split
    · exact ih _ _ _ rfl
    · exact ih _ _ _ h

theorem dataAttributes_isSome (attrs : List (Str × Str)) : ∀ (dm dm' : Option DataM), dataAttributes attrs dm = .ok dm' → dm'.isSome = dm.isSome := by
  induction attrs with
  | nil => intro dm dm' h; rw [dataAttributes] at h; injection h with h; rw [h]
  | cons a rest ih =>
    intro dm dm' h
    obtain ⟨a, v⟩ := a
    rw [dataAttributes.eq_def] at h
    simp only at h
    split at h
    · split at h
      · cases h
      · rw [ih _ _ h]; rfl
    · split at h
      · exact ih _ _ h
      · split at h
        · split at h
          · cases h
          · rw [ih _ _ h]; rfl
        · split at h
          · split at h
            · cases h
            · rw [ih _ _ h]; rfl
          · exact ih _ _ h

theorem traceEvent_sync (pd pd' : ParseData) (e : Event) (g : G) (r : RG) (hs : RSync pd r) (h : onEvent pd e = .ok pd') :
    RSync pd' (traceEvent pd e g r).2 := by
  cases e with
  | text t =>
    simp only [onEvent, onText] at h
    injection h with h; subst h
    simp only [traceEvent]
    split
    · exact ⟨hs.m, hs.list⟩
    · exact hs
  | stop n =>
    simp only [onEvent, onEnd] at h
    injection h with h; subst h
    simp only [traceEvent, traceStop]
    have hm := hs.m
    cases hr : r.m with
    | none =>
      rw [hr] at hm
      have : pd.m = none := by cases hp : pd.m with
        | none => rfl
        | some x => rw [hp] at hm; cases hm
      simp only [this]
      exact ⟨by simp [hr], hs.list⟩
    | some i =>
      rw [hr] at hm
      obtain ⟨x, hp⟩ := Option.isSome_iff_exists.mp hm.symm
      simp only [hp]
      split
      · exact ⟨rfl, by simp [hs.list]⟩
      · exact ⟨rfl, hs.list⟩
  | start el attrs =>
    simp only [onEvent, onStart] at h
    simp only [traceEvent, traceStart]
    split at h
    · cases h
    · next hn =>
      rw [if_neg hn]
      split at h
      · cases h
      · next hn2 =>
        rw [if_neg hn2]
        split at h
        · next hd =>
          rw [if_pos hd]
          split at h
          · next he =>
            rw [if_pos he]
            split at h
            · cases h
            · next dm hdm =>
              injection h with h; subst h
              refine ⟨?_, hs.list⟩
              show (traceCreate attrs g none).2.isSome = (dm.map _).isSome
              rw [Option.isSome_map, dataAttributes_isSome _ _ _ hdm]
              exact createLoop_sync attrs g none none rfl
          · next he =>
            rw [if_neg he]
            split at h
            · next he2 =>
              rw [if_pos he2]
              injection h with h; subst h
              exact ⟨rfl, hs.list⟩
            · next he2 =>
              rw [if_neg he2]
              injection h with h; subst h
              exact ⟨hs.m, hs.list⟩
        · next hd =>
          rw [if_neg hd]
          injection h with h; subst h
          exact ⟨hs.m, hs.list⟩

theorem traceEvents_step (es : List Event) : ∀ (pd : ParseData) (g : G) (r : RG), RSync pd r →
    Step (∀ e ∈ es, OneType e) (g.cfg r.held) ((traceEvents pd es g r).1.cfg (traceEvents pd es g r).2.held) ∧ Same g (traceEvents pd es g r).1 ∧
      ∀ pd', onEvents pd es = .ok pd' → RSync pd' (traceEvents pd es g r).2 := by
  induction es with
  | nil =>
    intro pd g r hs
    refine ⟨.refl _ _, .refl g, fun pd' h => ?_⟩
    rw [onEvents] at h; injection h with h; subst h; exact hs
  | cons e es ih =>
    intro pd g r hs
    obtain ⟨h1, h2⟩ := traceEvent_step pd e g r hs.m
    rw [traceEvents, onEvents]
    cases he : onEvent pd e with
    | error f =>
      exact ⟨h1.imp fun h => h e (List.mem_cons_self ..), h2, fun _ h => by cases h⟩
    | ok pd1 =>
      obtain ⟨h3, h4, h5⟩ := ih pd1 (traceEvent pd e g r).1 (traceEvent pd e g r).2 (traceEvent_sync pd pd1 e g r hs he)
      exact ⟨(h1.trans h3).imp fun h => ⟨h e (List.mem_cons_self ..), fun x hx => h x (List.mem_cons_of_mem _ hx)⟩, h2.trans h4, h5⟩

/-- The parser reports no element with two `type` attributes (in a well-formed document no attribute is given twice). -/
def NoTwice (X : Expat) : Prop := ∀ st chunk last, ∀ e ∈ (X.feed st chunk last).2.1, OneType e

theorem traceLoop_step (X : Expat) (size fuel : Nat) : ∀ (rest : Str) (st : X.State) (pd : ParseData) (g : G) (r : RG), RSync pd r →
    Step (NoTwice X) (g.cfg r.held) ((traceLoop X size fuel rest st pd g r).1.cfg (traceLoop X size fuel rest st pd g r).2.held) ∧
      Same g (traceLoop X size fuel rest st pd g r).1 ∧
      ∀ ms, readLoop X size fuel rest st pd = .ok ms →
        (traceLoop X size fuel rest st pd g r).2.m = none ∧ (traceLoop X size fuel rest st pd g r).2.list.length = ms.length := by
  induction fuel with
  | zero => intro rest st pd g r hs; exact ⟨.refl _ _, .refl g, fun ms h => by rw [readLoop] at h; cases h⟩
  | succ fuel ih =>
    intro rest st pd g r hs
    obtain ⟨u1, u2⟩ := g.useIs_step r.held
    rw [traceLoop, readLoop]
    generalize (if decide (rest.length < 1024) = true then size % 1024 else 1024) = len
    rcases hf : X.feed st ((rest.take 1024).take len) (decide (rest.length < 1024)) with ⟨st', es, ok⟩
    simp only
    split
    · exact ⟨u1.imp fun _ => trivial, u2, fun ms h => by cases h⟩
    · obtain ⟨h1, h2, h3⟩ := traceEvents_step es pd (g.useOpt g.is) r hs
      have hno : NoTwice X → ∀ e ∈ es, OneType e := fun hX e he => hX st _ _ e (by rw [hf]; exact he)
      have h12 := (u1.trans h1).imp (U := NoTwice X) fun hX => ⟨trivial, hno hX⟩
      cases hev : onEvents pd es with
      | error f => exact ⟨h12, u2.trans h2, fun ms h => by cases h⟩
      | ok pd' =>
        have hs' := h3 pd' hev
        simp only
        cases ok with
        | false =>
          refine ⟨h12, u2.trans h2, fun ms h => ?_⟩
          simp only [leave] at h
          simp only [Bool.false_eq_true, if_false] at h
          split at h <;> cases h
        | true =>
          simp only [if_true]
          split
          · refine ⟨h12, u2.trans h2, fun ms h => ?_⟩
            simp only [leave] at h
            split at h
            · cases h
            · next hn =>
              injection h with h; subst h
              refine ⟨?_, hs'.list⟩
              have hm := hs'.m
              cases hr : (traceEvents pd es (g.useOpt g.is) r).2.m with
              | none => rfl
              | some i => rw [hr] at hm; exact absurd hm.symm hn
          · obtain ⟨h4, h5, h6⟩ := ih (rest.drop 1024) st' pd' (traceEvents pd es (g.useOpt g.is) r).1 (traceEvents pd es (g.useOpt g.is) r).2 hs'
            exact ⟨h12.trans' h4, (u2.trans h2).trans h5, h6⟩

theorem traceRead_step (X : Expat) (bytes : Str) (g : G) :
    Step (NoTwice X ∧ g.input = [] ∧ ∃ ms, readXML X bytes = .ok ms) (g.cfg []) ((traceRead X bytes g).cfg []) ∧
      (traceRead X bytes g).os = g.os ∧ (traceRead X bytes g).is = g.is ∧
      (∀ ms, readXML X bytes = .ok ms → (traceRead X bytes g).input.length = ms.length) ∧
      (∀ f, readXML X bytes = .error f → (traceRead X bytes g).input = g.input) := by
  obtain ⟨h1, h2, h3⟩ := traceLoop_step X bytes.length (bytes.length / 1024 + 1) bytes X.init {} g {} ⟨rfl, rfl⟩
  have e0 : g.cfg [] = g.cfg (RG.held {}) := rfl
  obtain ⟨s1, s2, s3⟩ := h2
  rw [traceRead]
  generalize ht : traceLoop X bytes.length (bytes.length / 1024 + 1) bytes X.init {} g {} = t at *
  obtain ⟨t, r⟩ := t
  simp only at *
  cases hr : readXML X bytes with
  | error f =>
    refine ⟨?_, s2, s3, fun ms h => (by cases h), fun f h => s1⟩
    rw [e0]
    refine (h1.trans (step_drop t.next t.log (h' := (t.cfg []).held) ?_)).imp ?_
    · simp [G.cfg]
    · rintro ⟨_, _, ms, h⟩; cases h
  | ok ms =>
    obtain ⟨m1, m2⟩ := h3 ms hr
    refine ⟨?_, s2, s3, fun ms' h => (by injection h with h; subst h; exact m2), fun f h => (by cases h)⟩
    rw [e0]
    refine (h1.trans (step_drop t.next t.log (h' := (G.cfg { t with input := r.list } []).held) ?_)).imp ?_
    · simp only [G.cfg, RG.held, List.nil_append, List.append_assoc]
      refine List.Sublist.trans ?_ (List.sublist_append_right _ _)
      exact List.Sublist.append (List.Sublist.refl _) (List.sublist_append_right _ _)
    · rintro ⟨hX, hi, _⟩
      refine ⟨hX, ?_⟩
      simp [G.cfg, RG.held, m1, s1, hi]

end Verif.Life
