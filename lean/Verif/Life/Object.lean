import Verif.Life.Reader
import Verif.Regression.LeftoverProps

/-!
# The objects of a `RegressionTest`: the steps of a run
-/

namespace Verif.Life
open Spec Verif.Measurement Verif.Regression Verif.Xml

/-- The pointers of the history agree with the object. -/
structure Sync (o : Obj) (g : G) : Prop where
  input : g.input.length = o.input.length
  os : g.os.isSome = o.os.isSome
  is : g.is.isSome = o.is.isSome

theorem Sync.same {o : Obj} {g g' : G} (h : Sync o g) (s : Same g g') : Sync o g' := by
  obtain ⟨a, b, c⟩ := s
  exact ⟨by rw [a]; exact h.input, by rw [b]; exact h.os, by rw [c]; exact h.is⟩

theorem Sync.obj {o o' : Obj} {g : G} (h : Sync o g) (hi : o'.input = o.input) (ho : o'.os = o.os) (hs : o'.is = o.is) : Sync o' g :=
  ⟨by rw [hi]; exact h.input, by rw [ho]; exact h.os, by rw [hs]; exact h.is⟩

theorem G.destroyAll_step (l : List Nat) : ∀ (g : G) (rest : List Nat),
    Step True ⟨g.next, g.log, l ++ rest⟩ ⟨(g.destroyAll l).next, (g.destroyAll l).log, rest⟩ ∧ Same g (g.destroyAll l) := by
  induction l with
  | nil => intro g rest; exact ⟨.refl _ _, .refl g⟩
  | cons i l ih =>
    intro g rest
    obtain ⟨h1, h2⟩ := ih (g.add (.destroy i)) rest
    exact ⟨(step_destroy g.next g.log (l ++ rest) i).trans' h1, Same.trans (⟨rfl, rfl, rfl⟩ : Same g (g.add (.destroy i))) h2⟩

theorem traceFree_step (g : G) : Step True (g.cfg []) ((traceFree g).cfg []) ∧ (traceFree g).input = [] ∧ (traceFree g).os = g.os ∧ (traceFree g).is = g.is := by
  obtain ⟨h1, h2⟩ := g.destroyAll_step g.input (g.os.toList ++ g.is.toList)
  refine ⟨?_, rfl, h2.2.1, h2.2.2⟩
  have e : (traceFree g).cfg [] = ⟨(g.destroyAll g.input).next, (g.destroyAll g.input).log, g.os.toList ++ g.is.toList⟩ := by
    simp [G.cfg, traceFree, h2.2.1, h2.2.2]
  rw [e]
  exact h1

/-! ## Begin -/

theorem traceOutput_step (s : St) (g : G) : Step (g.os = none) (g.cfg []) ((traceOutput s g).cfg []) ∧ (traceOutput s g).input = g.input ∧
    (traceOutput s g).is = g.is ∧ (g.os.isSome = s.obj.os.isSome → (traceOutput s g).os.isSome = (openOutput s).1.obj.os.isSome) := by
  have hc : Step True (g.cfg []) (g.create.cfg [g.next]) := step_create g.next g.log _
  rw [traceOutput, openOutput]
  split
  · cases s.world.openWrite s.obj.outFileName with
    | none =>
      refine ⟨?_, rfl, rfl, fun _ => rfl⟩
      have hd : Step True (g.create.cfg [g.next]) ((g.create.add (.destroy g.next)).cfg []) := step_destroy _ _ _ _
      refine ((hc.trans hd).trans (step_drop _ _ ?_)).imp ?_
      · simp [G.add, G.create]
      · intro h; simp [h, G.add, G.create]
    | some w =>
      refine ⟨?_, rfl, rfl, fun _ => rfl⟩
      have hp : Step True (g.create.cfg [g.next]) ⟨g.create.next, g.create.log, g.input ++ (g.next :: (g.os.toList ++ g.is.toList))⟩ := by
        refine step_perm _ _ ?_
        show (g.next :: (g.input ++ (g.os.toList ++ g.is.toList))).Perm _
        exact List.perm_middle.symm
      refine ((hc.trans hp).trans (step_drop _ _ ?_)).imp ?_
      · simp [G.create]
      · intro h; simp [h, G.create]
  · exact ⟨.refl _ _, rfl, rfl, id⟩

theorem traceInput_step (s : St) (g : G) : Step (g.is = none) (g.cfg []) ((traceInput s g).cfg []) ∧ (traceInput s g).input = g.input ∧
    (traceInput s g).os = g.os ∧ (g.is.isSome = s.obj.is.isSome → (traceInput s g).is.isSome = (openInput s).1.obj.is.isSome) := by
  have hc : Step True (g.cfg []) (g.create.cfg [g.next]) := step_create g.next g.log _
  rw [traceInput, openInput]
  split
  · simp only
    generalize (if s.obj.searched s.world.fs = [] then s.obj.inFileName else s.obj.searched s.world.fs) = p
    cases s.world.openRead p with
    | none =>
      refine ⟨?_, rfl, rfl, fun _ => rfl⟩
      have hd : Step True (g.create.cfg [g.next]) ((g.create.add (.destroy g.next)).cfg []) := step_destroy _ _ _ _
      refine ((hc.trans hd).trans (step_drop _ _ ?_)).imp ?_
      · simp [G.add, G.create]
      · intro h; simp [h, G.add, G.create]
    | some w =>
      refine ⟨?_, rfl, rfl, fun _ => rfl⟩
      have hp : Step True (g.create.cfg [g.next]) ⟨g.create.next, g.create.log, g.input ++ (g.os.toList ++ (g.next :: g.is.toList))⟩ := by
        refine step_perm _ _ ?_
        show (g.next :: (g.input ++ (g.os.toList ++ g.is.toList))).Perm _
        rw [← List.append_assoc, ← List.append_assoc]
        exact List.perm_middle.symm
      refine ((hc.trans hp).trans (step_drop _ _ ?_)).imp ?_
      · simp [G.create]
      · intro h; simp [h, G.create]
  · exact ⟨.refl _ _, rfl, rfl, id⟩

theorem openOutput_obj (s : St) : (openOutput s).1.obj.input = s.obj.input ∧ (openOutput s).1.obj.is = s.obj.is := by
  rw [openOutput]
  split
  · split <;> exact ⟨rfl, rfl⟩
  · exact ⟨rfl, rfl⟩

theorem openInput_obj (s : St) : (openInput s).1.obj.input = s.obj.input ∧ (openInput s).1.obj.os = s.obj.os := by
  rw [openInput]
  split
  · simp only
    split <;> exact ⟨rfl, rfl⟩
  · exact ⟨rfl, rfl⟩

theorem traceStartOrRead_step (X : Expat) (env : Env) (s : St) (g : G) (hs : Sync s.obj g) :
    Step (NoTwice X ∧ g.input = [] ∧ (startOrRead (withXML X env) s).2 = .ok ()) (g.cfg []) ((traceStartOrRead X s g).cfg []) ∧
      Sync (startOrRead (withXML X env) s).1.obj (traceStartOrRead X s g) ∧
      (g.is = none → g.input = [] → (traceStartOrRead X s g).input = []) ∧ (traceStartOrRead X s g).is = g.is := by
  rw [traceStartOrRead, startOrRead]
  split
  · cases hi : s.obj.is with
    | none => exact ⟨.refl _ _, hs, fun _ h => h, rfl⟩
    | some b =>
      have his : g.is ≠ none := by
        have := hs.is; rw [hi] at this; intro h; rw [h] at this; cases this
      obtain ⟨h1, h2, h3, h4, h5⟩ := traceRead_step X b g
      simp only
      refine ⟨h1.imp ?_, ?_, fun h => absurd h his, h3⟩
      · rintro ⟨a, b', c⟩
        refine ⟨a, b', ?_⟩
        change (match readXML X b with | .error f => (s, Except.error f) | .ok ms => (({ s with obj := { s.obj with input := ms } } : St), Except.ok ())).2 = _ at c
        cases hr : readXML X b with
        | error f => rw [hr] at c; cases c
        | ok ms => exact ⟨ms, rfl⟩
      · change Sync (match readXML X b with | .error f => (s, Except.error f) | .ok ms => (({ s with obj := { s.obj with input := ms } } : St), Except.ok ())).1.obj _
        cases hr : readXML X b with
        | error f => exact ⟨by rw [h5 f hr]; exact hs.input, by rw [h2]; exact hs.os, by rw [h3]; exact hs.is⟩
        | ok ms => exact ⟨h4 ms hr, by rw [h2]; exact hs.os, by rw [h3]; exact hs.is⟩
  · obtain ⟨h1, h2⟩ := g.useOs_step []
    refine ⟨h1.imp fun _ => trivial, ?_, fun _ h => by rw [h2.1]; exact h, h2.2.2⟩
    rw [emit_obj]
    exact hs.same h2

theorem traceBegin_step (X : Expat) (env : Env) (s : St) (g : G) (hs : Sync s.obj g) :
    Step (NoTwice X ∧ g.input = [] ∧ g.os = none ∧ g.is = none ∧ (beginMeasurement (withXML X env) s).2 = .ok ()) (g.cfg []) ((traceBegin X s g).cfg []) ∧
      Sync (beginMeasurement (withXML X env) s).1.obj (traceBegin X s g) ∧
      (g.input = [] → (beginMeasurement (withXML X env) s).2 = .ok () → (traceBegin X s g).is = none → (traceBegin X s g).input = []) := by
  obtain ⟨o1, o2, o3, o4⟩ := traceOutput_step s g
  obtain ⟨p1, p2⟩ := openOutput_obj s
  have so : Sync (openOutput s).1.obj (traceOutput s g) := ⟨by rw [o2, p1]; exact hs.input, o4 hs.os, by rw [o3, p2]; exact hs.is⟩
  rw [traceBegin, beginMeasurement, Res.andThen.eq_def]
  rcases ho : openOutput s with ⟨s1, f | u⟩
  · rw [ho] at so
    exact ⟨o1.imp fun h => h.2.2.1, so, fun _ h => by cases h⟩
  · rw [ho] at so
    simp only at so ⊢
    obtain ⟨i1, i2, i3, i4⟩ := traceInput_step s1 (traceOutput s g)
    obtain ⟨q1, q2⟩ := openInput_obj s1
    have si : Sync (openInput s1).1.obj (traceInput s1 (traceOutput s g)) := ⟨by rw [i2, q1]; exact so.input, by rw [i3, q2]; exact so.os, i4 so.is⟩
    rw [Res.andThen.eq_def]
    rcases hi : openInput s1 with ⟨s2, f | u⟩
    · rw [hi] at si
      refine ⟨(o1.trans i1).imp fun h => ⟨h.2.2.1, by rw [o3]; exact h.2.2.2.1⟩, si, fun _ h => by cases h⟩
    · rw [hi] at si
      simp only at si ⊢
      obtain ⟨r1, r2, r3, r4⟩ := traceStartOrRead_step X env s2 (traceInput s1 (traceOutput s g)) si
      refine ⟨((o1.trans i1).trans r1).imp fun h => ⟨⟨h.2.2.1, by rw [o3]; exact h.2.2.2.1⟩, h.1, by rw [i2, o2]; exact h.2.1, h.2.2.2.2⟩, r2, fun h _ hn => ?_⟩
      exact r3 (by rw [← r4]; exact hn) (by rw [i2, o2]; exact h)

/-! ## The test -/

theorem unmatched_os (s : St) (m : Meas) : (unmatchedMeasurement s m).1.obj.os = s.obj.os := by
  simp only [unmatchedMeasurement]
  split
  · rfl
  · simp only [emit_obj]

theorem compare_os (env : Env) (s : St) (m : Meas) (tol : Bool) : (compareMeasurement env s m tol).1.obj.os = s.obj.os := by
  have hun : ∀ s : St, ((unmatchedMeasurement s m).andThen fun s _ => (s, .ok (1 : Int))).1.obj.os = s.obj.os := by
    intro s
    have := unmatched_os s m
    rcases hu : unmatchedMeasurement s m with ⟨s2, f | u⟩ <;> rw [hu] at this <;> exact this
  cases hi : s.obj.input with
  | nil => simp only [compareMeasurement, hi]; exact hun s
  | cons b rest =>
    simp only [compareMeasurement, hi]
    split
    · cases locateBaseline { s with obj := { s.obj with input := rest } } b m with
      | error f => simp
      | ok b' =>
        simp only
        have hv : (compareVisit env { s with obj := { s.obj with input := rest } } tol b' m).1.obj = { s.obj with input := rest } := by
          simp only [compareVisit]; split <;> rfl
        rcases hcv : compareVisit env { s with obj := { s.obj with input := rest } } tol b' m with ⟨s', b'', t', f | same⟩
        · rw [hcv] at hv; simp only at hv ⊢; rw [hv]
        · rw [hcv] at hv
          simp only at hv ⊢
          cases same with
          | true => simp only [if_true]; rw [hv]
          | false =>
            have hd := difference_obj env s' t' b''
            simp only [Bool.false_eq_true, if_false, Res.andThen]
            rcases hdm : differenceMeasurement env s' t' b'' with ⟨s2, f | u⟩ <;> rw [hdm] at hd <;> simp only at hd ⊢ <;>
              rw [hd, hv]
    · exact hun { s with obj := { s.obj with input := rest } }

theorem traceCompare_step (env : Env) (s : St) (m : Meas) (tol : Bool) (g : G) :
    Step (∃ v, (compareMeasurement env s m tol).2 = .ok v) (g.cfg []) ((traceCompare env s m tol g).cfg []) ∧
      (traceCompare env s m tol g).input = g.input.drop 1 ∧ (traceCompare env s m tol g).os = g.os ∧ (traceCompare env s m tol g).is = g.is := by
  rw [traceCompare]
  cases hi : g.input with
  | nil =>
    obtain ⟨h1, h2⟩ := g.useOs_step []
    exact ⟨h1.imp fun _ => trivial, by rw [h2.1, hi]; rfl, h2.2⟩
  | cons i rest =>
    simp only
    have h1 : Step True (g.cfg []) (G.cfg { g.add (.use i) with input := rest } [i]) := by
      have := step_use g.next g.log (g.cfg []).held i (by simp [G.cfg, hi])
      simpa [G.cfg, hi, G.add] using this
    obtain ⟨h2, h3⟩ := G.useOs_step { g.add (.use i) with input := rest } [i]
    generalize hg : (G.useOpt { g.add (.use i) with input := rest } (G.os { g.add (.use i) with input := rest })) = g2 at *
    rcases hr : compareMeasurement env s m tol with ⟨s', f | v⟩
    · refine ⟨?_, h3.1, h3.2⟩
      refine ((h1.trans' h2).trans (step_drop _ _ ?_)).imp ?_
      · simp
      · rintro ⟨v, hv⟩; cases hv
    · refine ⟨?_, h3.1, h3.2⟩
      have hd : Step True (g2.cfg [i]) ((g2.add (.destroy i)).cfg []) := step_destroy _ _ _ _
      exact ((h1.trans' h2).trans' hd).imp fun _ => trivial

theorem runCall_obj (env : Env) (s : St) (c : Call) : (runCall env s c).1.obj.os = s.obj.os ∧ (runCall env s c).1.obj.is = s.obj.is ∧
    (runCall env s c).1.obj.input = if s.compareMode then s.obj.input.drop 1 else s.obj.input := by
  rw [runCall]
  split
  · exact ⟨compare_os .., (compare_input ..).2, (compare_input ..).1⟩
  · cases c.recorded with
    | error f => exact ⟨rfl, rfl, rfl⟩
    | ok m =>
      cases hp : m.print with
      | error f => simp only [hp]; exact ⟨trivial, trivial, trivial⟩
      | ok t => simp only [hp]; rw [emit_obj]; exact ⟨rfl, rfl, rfl⟩

theorem traceCall_step (env : Env) (s : St) (c : Call) (g : G) (hs : Sync s.obj g) :
    Step (∃ v, (runCall env s c).2 = .ok v) (g.cfg []) ((traceCall env s c g).cfg []) ∧ Sync (runCall env s c).1.obj (traceCall env s c g) ∧
      (traceCall env s c g).is = g.is ∧ (g.input = [] → (traceCall env s c g).input = []) := by
  obtain ⟨a, b, d⟩ := runCall_obj env s c
  by_cases hm : s.compareMode = true
  · obtain ⟨h1, h2, h3, h4⟩ := traceCompare_step env s c.meas c.tolerant g
    rw [if_pos hm] at d
    have e1 : traceCall env s c g = traceCompare env s c.meas c.tolerant g := by rw [traceCall, if_pos hm]
    have e2 : runCall env s c = compareMeasurement env s c.meas c.tolerant := by rw [runCall, if_pos hm]
    refine ⟨by rw [e1, e2]; exact h1, ⟨?_, ?_, ?_⟩, by rw [e1]; exact h4, fun h => by rw [e1, h2, h]; rfl⟩
    · rw [e1, h2, d, List.length_drop, List.length_drop, hs.input]
    · rw [e1, h3, a]; exact hs.os
    · rw [e1, h4, b]; exact hs.is
  · obtain ⟨h1, h2⟩ := g.useOs_step []
    rw [if_neg hm] at d
    have e1 : traceCall env s c g = g.useOpt g.os := by rw [traceCall, if_neg hm]
    refine ⟨by rw [e1]; exact h1.imp fun _ => trivial, by rw [e1]; exact (hs.same h2).obj d a b, by rw [e1]; exact h2.2.2, fun h => by rw [e1, h2.1]; exact h⟩

theorem traceProg_step (env : Env) (p : Prog) : ∀ (s : St) (g : G), Sync s.obj g →
    Step (∃ v, (runProg env p s).2 = .ok v) (g.cfg []) ((traceProg env p s g).cfg []) ∧ Sync (runProg env p s).1.obj (traceProg env p s g) ∧
      (traceProg env p s g).is = g.is ∧ (g.input = [] → (traceProg env p s g).input = []) := by
  induction p with
  | ret v => intro s g hs; exact ⟨.refl _ _, hs, rfl, id⟩
  | fails e => intro s g hs; exact ⟨.refl _ _, hs, rfl, id⟩
  | act f k ih => intro s g hs; exact ih { s with world := f s.world } g hs
  | look k ih => intro s g hs; exact ih s.world s g hs
  | ask k ih => intro s g hs; exact ih s.settings s g hs
  | setTolerance t k ih => intro s g hs; exact ih { s with obj := { s.obj with tolerance := t } } g ⟨hs.input, hs.os, hs.is⟩
  | setExpected v k ih => intro s g hs; exact ih { s with obj := { s.obj with expected := v } } g ⟨hs.input, hs.os, hs.is⟩
  | setImageTolerance t k ih => intro s g hs; exact ih { s with obj := { s.obj with imageTol := t } } g ⟨hs.input, hs.os, hs.is⟩
  | setSearchPath ps k ih => intro s g hs; exact ih { s with obj := { s.obj with searchPath := ps } } g ⟨hs.input, hs.os, hs.is⟩
  | prependSearchPath p k ih => intro s g hs; exact ih { s with obj := { s.obj with searchPath := p :: s.obj.searchPath } } g ⟨hs.input, hs.os, hs.is⟩
  | setInFileName n k ih => intro s g hs; exact ih { s with obj := { s.obj with inFileName := n } } g ⟨hs.input, hs.os, hs.is⟩
  | setOutFileName n k ih => intro s g hs; exact ih { s with obj := { s.obj with outFileName := n } } g ⟨hs.input, hs.os, hs.is⟩
  | call c k ih =>
    intro s g hs
    obtain ⟨h1, h2, h3, h4⟩ := traceCall_step env s c g hs
    rw [traceProg, runProg]
    rcases hr : runCall env s c with ⟨s', f | r⟩
    · rw [hr] at h1 h2
      exact ⟨h1.imp fun ⟨v, hv⟩ => (by cases hv), h2, h3, h4⟩
    · rw [hr] at h1 h2
      simp only at h1 h2 ⊢
      obtain ⟨i1, i2, i3, i4⟩ := ih r s' (traceCall env s c g) h2
      exact ⟨(h1.trans i1).imp fun h => ⟨⟨r, rfl⟩, h⟩, i2, i3.trans h3, fun h => i4 (h4 h)⟩

/-! ## End -/

theorem destroyOs_step (g : G) : Step True (g.cfg []) (G.cfg { g.destroyOpt g.os with os := none } []) := by
  cases ho : g.os with
  | none =>
    have : G.cfg { g.destroyOpt none with os := none } [] = g.cfg [] := by simp [G.cfg, G.destroyOpt, ho]
    rw [this]; exact .refl _ _
  | some i =>
    have hp : Step True (g.cfg []) ⟨g.next, g.log, i :: (g.input ++ g.is.toList)⟩ := by
      refine step_perm _ _ ?_
      simp only [ho, Option.toList, List.nil_append, List.cons_append]
      exact List.perm_middle
    have hd := step_destroy g.next g.log (g.input ++ g.is.toList) i
    have e : G.cfg { g.destroyOpt (some i) with os := none } [] = ⟨g.next, g.log ++ [.destroy i], g.input ++ g.is.toList⟩ := by
      simp [G.cfg, G.destroyOpt, G.add]
    rw [e]
    exact hp.trans' hd

theorem destroyIs_step (g : G) : Step True (g.cfg []) (G.cfg { g.destroyOpt g.is with is := none } []) := by
  cases ho : g.is with
  | none =>
    have : G.cfg { g.destroyOpt none with is := none } [] = g.cfg [] := by simp [G.cfg, G.destroyOpt, ho]
    rw [this]; exact .refl _ _
  | some i =>
    have hp : Step True (g.cfg []) ⟨g.next, g.log, i :: (g.input ++ g.os.toList)⟩ := by
      refine step_perm _ _ ?_
      simp only [ho, Option.toList, List.nil_append]
      rw [← List.append_assoc]
      exact List.perm_append_singleton _ _
    have hd := step_destroy g.next g.log (g.input ++ g.os.toList) i
    have e : G.cfg { g.destroyOpt (some i) with is := none } [] = ⟨g.next, g.log ++ [.destroy i], g.input ++ g.os.toList⟩ := by
      simp [G.cfg, G.destroyOpt, G.add]
    rw [e]
    exact hp.trans' hd

theorem destroyOpt_same (g : G) (p : Option Nat) : Same g (g.destroyOpt p) := by cases p <;> exact ⟨rfl, rfl, rfl⟩

theorem traceEnd_step (s : St) (g : G) (hs : Sync s.obj g) : Step True (g.cfg []) ((traceEnd s g).cfg []) ∧ Sync (endMeasurement s).obj (traceEnd s g) ∧
    (traceEnd s g).os = none ∧ (traceEnd s g).is = none ∧ (traceEnd s g).input = if s.compareMode then [] else g.input := by
  have key : ∀ g1 : G, Step True (g1.cfg []) (G.cfg { (G.destroyOpt { g1.destroyOpt g1.os with os := none } (G.is { g1.destroyOpt g1.os with os := none })) with is := none } []) ∧
      ({ (G.destroyOpt { g1.destroyOpt g1.os with os := none } (G.is { g1.destroyOpt g1.os with os := none })) with is := none } : G).os = none ∧
      ({ (G.destroyOpt { g1.destroyOpt g1.os with os := none } (G.is { g1.destroyOpt g1.os with os := none })) with is := none } : G).input = g1.input := by
    intro g1
    have a := destroyOs_step g1
    have b := destroyIs_step { g1.destroyOpt g1.os with os := none }
    have c := destroyOpt_same { g1.destroyOpt g1.os with os := none } (G.is { g1.destroyOpt g1.os with os := none })
    exact ⟨a.trans' b, c.2.1, c.1.trans (destroyOpt_same g1 g1.os).1⟩
  simp only [traceEnd, endMeasurement]
  by_cases hm : s.compareMode = true
  · simp only [hm, if_true]
    obtain ⟨f1, f2, f3, f4⟩ := traceFree_step g
    obtain ⟨k1, k2, k3⟩ := key (traceFree g)
    exact ⟨f1.trans' k1, ⟨by rw [k3, f2]; rfl, by rw [k2]; rfl, rfl⟩, k2, trivial, k3.trans f2⟩
  · simp only [hm, if_false, Bool.false_eq_true]
    obtain ⟨u1, u2⟩ := g.useOs_step []
    obtain ⟨k1, k2, k3⟩ := key (g.useOpt g.os)
    refine ⟨u1.trans' k1, ⟨?_, by rw [k2]; rfl, rfl⟩, k2, trivial, k3.trans u2.1⟩
    rw [k3, u2.1, emit_obj]; exact hs.input

end Verif.Life
