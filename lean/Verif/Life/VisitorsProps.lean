import Verif.Life.Visitors
import Verif.Life.VisitorsSpec

/-!
# C126: visitors and parsers are destroyed unless an exception is thrown
-/

namespace Verif.Life
open Spec Verif.Measurement Verif.Regression Verif.Xml

/-! ## Counting -/

/-- The objects that exist are exactly those in the list. -/
structure Tally (v : V) (l : List Nat) : Prop where
  inv : Inv ⟨v.next, v.log, l⟩
  all : ∀ i, Leaked v.log i → i ∈ l

theorem Tally.loses {v : V} {l : List Nat} (h : Tally v l) : Loses v.log l.length := ⟨l, h.inv.nodup, rfl, fun i => ⟨h.all i, h.inv.live i⟩⟩

theorem Tally.step {v v' : V} {l l' : List Nat} (h : Tally v l) (s : Step True ⟨v.next, v.log, l⟩ ⟨v'.next, v'.log, l'⟩) : Tally v' l' :=
  ⟨s.inv h.inv, s.tight trivial h.inv h.all⟩

theorem Tally.create {v : V} {l : List Nat} (h : Tally v l) : Tally v.create (v.next :: l) := h.step (step_create _ _ _)

theorem Tally.use {v : V} {l : List Nat} (h : Tally v l) {i : Nat} (hi : i ∈ l) : Tally (v.add (.use i)) l := h.step (step_use _ _ _ i hi)

theorem Tally.destroy {v : V} {i : Nat} {l : List Nat} (h : Tally v (i :: l)) : Tally (v.add (.destroy i)) l := h.step (step_destroy _ _ _ i)

/-- `n` more than those in the list exist. -/
def Plus (v : V) (l : List Nat) (n : Nat) : Prop := ∃ k : List Nat, k.length = n ∧ Tally v (k ++ l)

theorem Plus.trans {v : V} {l k : List Nat} {n : Nat} (h : Plus v (k ++ l) n) : Plus v l (n + k.length) := by
  obtain ⟨j, hj, ht⟩ := h
  exact ⟨j ++ k, by simp [hj], by rw [List.append_assoc]; exact ht⟩

/-- What `DifferenceMeasurement` loses. -/
def lostDifference (env : Env) (s : St) (test baseline : Meas) : Nat :=
  match differenceMeasurement env s test baseline with
  | (_, .error _) => 1
  | (_, .ok _) => 0

/-- What `CompareMeasurement` loses. -/
def lostCompare (env : Env) (s : St) (test : Meas) (tolerant : Bool) : Nat :=
  match s.obj.input with
  | [] => 0
  | baseline :: rest =>
    let s := { s with obj := { s.obj with input := rest } }
    if baseline.name = test.name ∧ baseline.type = test.type then
      match locateBaseline s baseline test with
      | .error _ => 0
      | .ok baseline =>
        match compareVisit env s tolerant baseline test with
        | (_, _, _, .error _) => 1
        | (s, baseline, test, .ok same) => if same then 0 else 2 * lostDifference env s test baseline
    else 0

theorem visitDifference_tally (env : Env) (s : St) (test baseline : Meas) (v : V) (l : List Nat) (h : Tally v l) :
    Plus (visitDifference env s test baseline v) l (lostDifference env s test baseline) := by
  have h1 := h.create.use (List.mem_cons_self ..)
  simp only [visitDifference, lostDifference]
  rcases differenceMeasurement env s test baseline with ⟨s', f | u⟩
  · exact ⟨[v.next], rfl, h1⟩
  · exact ⟨[], rfl, h1.destroy⟩

theorem visitCompare_tally (env : Env) (s : St) (test : Meas) (tolerant : Bool) (v : V) (l : List Nat) (h : Tally v l) :
    Plus (visitCompare env s test tolerant v) l (lostCompare env s test tolerant) := by
  have h0 : Plus v l 0 := ⟨[], rfl, h⟩
  rw [visitCompare.eq_def, lostCompare.eq_def]
  cases s.obj.input with
  | nil => exact h0
  | cons baseline rest =>
    simp only
    generalize ({ s with obj := { s.obj with input := rest } } : St) = s0
    split
    · cases locateBaseline s0 baseline test with
      | error f => exact h0
      | ok b =>
        simp only
        have h1 := h.create.use (List.mem_cons_self ..)
        rcases compareVisit env s0 tolerant b test with ⟨s1, b1, t1, f | same⟩
        · exact ⟨[v.next], rfl, h1⟩
        · have h2 := h1.use (List.mem_cons_self ..)
          cases same with
          | true => exact ⟨[], rfl, h2.destroy⟩
          | false =>
            simp only [Bool.false_eq_true, if_false]
            obtain ⟨k, hk, hd⟩ := visitDifference_tally env s1 t1 b1 _ _ h2
            rw [lostDifference] at hk ⊢
            rcases hq : differenceMeasurement env s1 t1 b1 with ⟨s2, f | u⟩
            · rw [hq] at hk
              exact ⟨k ++ [v.next], by simp [hk], by rw [List.append_assoc]; exact hd⟩
            · rw [hq] at hk
              have : k = [] := List.length_eq_zero_iff.mp hk
              subst this
              exact ⟨[], rfl, hd.destroy⟩
    · exact h0

/-- What a measurement call loses. -/
def lostCall (env : Env) (s : St) (c : Call) : Nat := if s.compareMode then lostCompare env s c.meas c.tolerant else 0

theorem visitCall_tally (env : Env) (s : St) (c : Call) (v : V) (l : List Nat) (h : Tally v l) : Plus (visitCall env s c v) l (lostCall env s c) := by
  rw [visitCall, lostCall]
  split
  · exact visitCompare_tally env s c.meas c.tolerant v l h
  · exact ⟨[], rfl, h⟩

theorem lostCompare_ok (env : Env) (s s' : St) (m : Meas) (t : Bool) (r : Int) (h : compareMeasurement env s m t = (s', .ok r)) : lostCompare env s m t = 0 := by
  rw [compareMeasurement] at h
  rw [lostCompare.eq_def]
  cases hi : s.obj.input with
  | nil => rfl
  | cons baseline rest =>
    rw [hi] at h
    simp only at h ⊢
    generalize ({ s with obj := { s.obj with input := rest } } : St) = s0 at *
    split
    · next hc =>
      rw [if_pos hc] at h
      cases hl : locateBaseline s0 baseline m with
      | error f => rfl
      | ok b =>
        rw [hl] at h
        simp only at h ⊢
        rcases hv : compareVisit env s0 t b m with ⟨s1, b1, t1, f | same⟩
        · rw [hv] at h; cases h
        · rw [hv] at h
          cases same with
          | true => rfl
          | false =>
            simp only [Bool.false_eq_true, if_false] at h ⊢
            rw [lostDifference]
            rcases hq : differenceMeasurement env s1 t1 b1 with ⟨s2, f | u⟩
            · rw [hq] at h; cases h
            · rfl
    · rfl

theorem lostCall_ok (env : Env) (s s' : St) (c : Call) (r : Int) (h : runCall env s c = (s', .ok r)) : lostCall env s c = 0 := by
  rw [lostCall]
  split
  · next hm =>
    rw [runCall, if_pos hm] at h
    exact lostCompare_ok env s s' _ _ r h
  · rfl

/-- What a test loses. -/
def lostProg (env : Env) : Prog → St → Nat
  | .ret _, _ => 0
  | .fails _, _ => 0
  | .call c k, s => match runCall env s c with
    | (_, .error _) => lostCall env s c
    | (s', .ok r) => lostProg env (k r) s'
  | .act f k, s => lostProg env k { s with world := f s.world }
  | .look k, s => lostProg env (k s.world) s
  | .ask k, s => lostProg env (k s.settings) s
  | .setTolerance t k, s => lostProg env k { s with obj := { s.obj with tolerance := t } }
  | .setExpected x k, s => lostProg env k { s with obj := { s.obj with expected := x } }
  | .setImageTolerance t k, s => lostProg env k { s with obj := { s.obj with imageTol := t } }
  | .setSearchPath ps k, s => lostProg env k { s with obj := { s.obj with searchPath := ps } }
  | .prependSearchPath p k, s => lostProg env k { s with obj := { s.obj with searchPath := p :: s.obj.searchPath } }
  | .setInFileName n k, s => lostProg env k { s with obj := { s.obj with inFileName := n } }
  | .setOutFileName n k, s => lostProg env k { s with obj := { s.obj with outFileName := n } }

theorem visitProg_tally (env : Env) (p : Prog) : ∀ (s : St) (v : V) (l : List Nat), Tally v l → Plus (visitProg env p s v) l (lostProg env p s) := by
  induction p with
  | ret x => intro s v l h; exact ⟨[], rfl, h⟩
  | fails e => intro s v l h; exact ⟨[], rfl, h⟩
  | act f k ih => intro s v l h; exact ih _ v l h
  | look k ih => intro s v l h; exact ih _ s v l h
  | ask k ih => intro s v l h; exact ih _ s v l h
  | setTolerance t k ih => intro s v l h; exact ih _ v l h
  | setExpected x k ih => intro s v l h; exact ih _ v l h
  | setImageTolerance t k ih => intro s v l h; exact ih _ v l h
  | setSearchPath ps k ih => intro s v l h; exact ih _ v l h
  | prependSearchPath p k ih => intro s v l h; exact ih _ v l h
  | setInFileName n k ih => intro s v l h; exact ih _ v l h
  | setOutFileName n k ih => intro s v l h; exact ih _ v l h
  | call c k ih =>
    intro s v l h
    have hc := visitCall_tally env s c v l h
    rw [visitProg, lostProg]
    rcases hr : runCall env s c with ⟨s', f | r⟩
    · exact hc
    · rw [lostCall_ok env s s' c r hr] at hc
      obtain ⟨k', hk, ht⟩ := hc
      have : k' = [] := List.length_eq_zero_iff.mp hk
      subst this
      exact ih r s' _ l ht

theorem parserLoop_tally (X : Expat) (size p : Nat) (l : List Nat) (hp : p ∈ l) : ∀ (fuel : Nat) (rest : Str) (st : X.State) (pd : ParseData) (v : V),
    Tally v l → Tally (parserLoop X size p fuel rest st pd v) l := by
  intro fuel
  induction fuel with
  | zero => intro rest st pd v h; exact h
  | succ n ih =>
    intro rest st pd v h
    rw [parserLoop.eq_def]
    simp only
    repeat' split
    all_goals first
      | exact h.use hp
      | exact (h.use hp).use hp
      | exact ((h.use hp).use hp).use hp
      | exact ih _ _ _ _ ((h.use hp).use hp)

/-- What reading a baseline loses. -/
def lostRead (X : Expat) (bytes : Str) : Nat :=
  match readXML X bytes with
  | .error _ => 1
  | .ok _ => 0

theorem visitRead_tally (X : Expat) (bytes : Str) (v : V) (l : List Nat) (h : Tally v l) : Plus (visitRead X bytes v) l (lostRead X bytes) := by
  have h1 := parserLoop_tally X bytes.length v.next (v.next :: l) (List.mem_cons_self ..) (bytes.length / 1024 + 1) bytes X.init {} _ (h.create.use (List.mem_cons_self ..))
  simp only [visitRead, lostRead]
  cases readXML X bytes with
  | error f => exact ⟨[v.next], rfl, h1⟩
  | ok ms => exact ⟨[], rfl, h1.destroy⟩

/-- What `BeginMeasurement` loses. -/
def lostBegin (X : Expat) (s : St) : Nat :=
  match openOutput s with
  | (_, .error _) => 0
  | (s1, .ok _) => match openInput s1 with
    | (_, .error _) => 0
    | (s2, .ok _) => if s2.compareMode then match s2.obj.is with
      | none => 0
      | some b => lostRead X b
      else 0

theorem visitBegin_tally (X : Expat) (s : St) (v : V) (l : List Nat) (h : Tally v l) : Plus (visitBegin X s v) l (lostBegin X s) := by
  have h0 : Plus v l 0 := ⟨[], rfl, h⟩
  rw [visitBegin, lostBegin]
  rcases openOutput s with ⟨s1, f | u⟩
  · exact h0
  · simp only
    rcases openInput s1 with ⟨s2, f | u⟩
    · exact h0
    · simp only [visitStartOrRead]
      split
      · cases s2.obj.is with
        | none => exact h0
        | some b => exact visitRead_tally X b v l h
      · exact h0

theorem lostBegin_ok (X : Expat) (env : Env) (s s' : St) (h : beginMeasurement (withXML X env) s = (s', .ok ())) : lostBegin X s = 0 := by
  rw [beginMeasurement] at h
  rw [lostBegin]
  rcases h1 : openOutput s with ⟨s1, f | u⟩
  · rfl
  · rw [h1] at h
    simp only [Res.andThen] at h ⊢
    rcases h2 : openInput s1 with ⟨s2, f | u⟩
    · rfl
    · rw [h2] at h
      simp only [startOrRead] at h ⊢
      split
      · next hm =>
        rw [if_pos hm] at h
        cases hi : s2.obj.is with
        | none => rfl
        | some b =>
          rw [hi] at h
          simp only [lostRead] at h ⊢
          cases hr : readXML X b with
          | error f =>
            have : (withXML X env).readXML b = .error f := hr
            rw [this] at h; cases h
          | ok ms => rfl
      · rfl

/-- What a call of `Main` loses. -/
def lostMain (X : Expat) (env : Env) (test : List Str → Prog) (fuel : Nat) (argv : List Str) (s : St) : Nat :=
  match parseArguments s.world.fs fuel { s.obj with unmatched := s.obj.unmatched + 1 } argv with
  | (_, .error _) => 0
  | (o, .ok rest) => match beginMeasurement (withXML X env) ⟨o, s.world⟩ with
    | (_, .error _) => lostBegin X ⟨o, s.world⟩
    | (s', .ok ()) => lostProg (withXML X env) (test rest) s'

theorem visitMain_tally (X : Expat) (env : Env) (test : List Str → Prog) (fuel : Nat) (argv : List Str) (s : St) (v : V) (l : List Nat) (h : Tally v l) :
    Plus (visitMain X env test fuel argv s v) l (lostMain X env test fuel argv s) := by
  simp only [visitMain, lostMain]
  rcases parseArguments s.world.fs fuel { s.obj with unmatched := s.obj.unmatched + 1 } argv with ⟨o, f | rest⟩
  · exact ⟨[], rfl, h⟩
  · simp only
    have hb := visitBegin_tally X ⟨o, s.world⟩ v l h
    rcases he : beginMeasurement (withXML X env) ⟨o, s.world⟩ with ⟨s', f | u⟩
    · exact hb
    · rw [lostBegin_ok X env _ s' he] at hb
      obtain ⟨k', hk, ht⟩ := hb
      have : k' = [] := List.length_eq_zero_iff.mp hk
      subst this
      exact visitProg_tally _ _ _ _ l ht

/-- What the calls of `Main` lose. -/
def lostRuns (X : Expat) (env : Env) : List Run → St → Nat
  | [], _ => 0
  | r :: rs, s => lostMain X env r.test r.fuel r.argv (r.before s) + match main (withXML X env) r.test r.fuel r.argv (r.before s) with
    | (_, .error _) => 0
    | (s', .ok _) => lostRuns X env rs s'

theorem visits_tally (X : Expat) (env : Env) (rs : List Run) : ∀ (s : St) (v : V) (l : List Nat), Tally v l → Plus (visits X env rs s v) l (lostRuns X env rs s) := by
  induction rs with
  | nil => intro s v l h; exact ⟨[], rfl, h⟩
  | cons r rs ih =>
    intro s v l h
    have hm := visitMain_tally X env r.test r.fuel r.argv (r.before s) v l h
    rw [visits, lostRuns]
    rcases main (withXML X env) r.test r.fuel r.argv (r.before s) with ⟨s', f | x⟩
    · exact hm
    · obtain ⟨k, hk, ht⟩ := hm
      have := (ih s' _ _ ht).trans
      rw [hk, Nat.add_comm] at this
      exact this

theorem tally_start : Tally {} [] := by
  refine ⟨⟨fun before e after h => ?_, fun i h => ?_, List.nodup_nil, fun i h => by cases h⟩, fun i h => absurd h.1 (by simp)⟩
  · exact absurd (congrArg List.length h) (by simp)
  · simp at h

theorem visits_loses (X : Expat) (env : Env) (rs : List Run) (s : St) : Loses (visits X env rs s {}).log (lostRuns X env rs s) := by
  obtain ⟨k, hk, ht⟩ := visits_tally X env rs s {} [] tally_start
  rw [List.append_nil] at ht
  rw [← hk]
  exact ht.loses

theorem Spec.Loses.unique {log : List Ev} {m n : Nat} (h : Loses log m) (h' : Loses log n) : m = n := by
  obtain ⟨l, hl, rfl, hm⟩ := h
  obtain ⟨l', hl', rfl, hm'⟩ := h'
  exact ((List.perm_ext_iff_of_nodup hl hl').mpr fun i => (hm i).symm.trans (hm' i)).length_eq

end Verif.Life
