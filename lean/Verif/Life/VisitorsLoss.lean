import Verif.Life.VisitorsProps

/-!
# C126: the theorems
-/

namespace Verif.Life
open Spec Verif.Measurement Verif.Regression Verif.Xml

namespace Spec

/-- After the calls `before` another call `r` of `Main` loses exactly `k` visitors and parsers. -/
def CallLoses (X : Expat) (env : Env) (w : World) (before : List Run) (r : Run) (k : Nat) : Prop :=
  ∃ n, Loses (visits X env before (fresh w) {}).log n ∧ Loses (visits X env (before ++ [r]) (fresh w) {}).log (n + k)

/-- The number of calls of `Main` that an exception (or another fault) ends. -/
def faults (env : Env) : List Run → St → Nat
  | [], _ => 0
  | r :: rs, s => (if (tryBlock env r.test r.fuel r.argv (r.before s)).2.2.isSome then 1 else 0) + match main env r.test r.fuel r.argv (r.before s) with
    | (_, .error _) => 0
    | (s', .ok _) => faults env rs s'

end Spec

theorem lostRuns_append (X : Expat) (env : Env) (before : List Run) : ∀ (s s' : St) (rs : List Run), After (withXML X env) before s = some s' →
    lostRuns X env (before ++ rs) s = lostRuns X env before s + lostRuns X env rs s' := by
  induction before with
  | nil => intro s s' rs h; injection h with h; subst h; simp [lostRuns]
  | cons r before ih =>
    intro s s' rs h
    rw [After] at h
    rw [List.cons_append, lostRuns, lostRuns]
    rcases hm : main (withXML X env) r.test r.fuel r.argv (r.before s) with ⟨s1, f | v⟩
    · rw [hm] at h; cases h
    · rw [hm] at h
      simp only
      rw [ih s1 s' rs h, Nat.add_assoc]

theorem visits_append (X : Expat) (env : Env) (before : List Run) : ∀ (s s' : St) (v : V) (rs : List Run), After (withXML X env) before s = some s' →
    visits X env (before ++ rs) s v = visits X env rs s' (visits X env before s v) := by
  induction before with
  | nil => intro s s' v rs h; injection h with h; subst h; rfl
  | cons r before ih =>
    intro s s' v rs h
    rw [After] at h
    rw [List.cons_append, visits, visits]
    rcases hm : main (withXML X env) r.test r.fuel r.argv (r.before s) with ⟨s1, f | x⟩
    · rw [hm] at h; cases h
    · rw [hm] at h
      exact ih s1 s' _ rs h

theorem lostRuns_one (X : Expat) (env : Env) (r : Run) (s : St) : lostRuns X env [r] s = lostMain X env r.test r.fuel r.argv (r.before s) := by
  rw [lostRuns]
  rcases main (withXML X env) r.test r.fuel r.argv (r.before s) with ⟨s1, f | x⟩ <;> simp [lostRuns]

theorem callLoses (X : Expat) (env : Env) (w : World) (before : List Run) (s : St) (hb : After (withXML X env) before (fresh w) = some s) (r : Run) :
    CallLoses X env w before r (lostMain X env r.test r.fuel r.argv (r.before s)) := by
  refine ⟨_, visits_loses X env before (fresh w), ?_⟩
  have := visits_loses X env (before ++ [r]) (fresh w)
  rwa [lostRuns_append X env before (fresh w) s [r] hb, lostRuns_one] at this

/-- Whatever the parser, the libraries, the tests, the arguments, the surroundings and the changes of the settings are, and however the calls of `Main` end: no visitor and
no parser is used before it is made or after it was destroyed, and none is destroyed twice. -/
theorem C126_lifetimes (X : Expat) (env : Env) (runs : List Run) (w : World) : Valid (visits X env runs (fresh w) {}).log := by
  obtain ⟨k, -, ht⟩ := visits_tally X env runs (fresh w) {} [] tally_start
  exact ht.inv.valid

/-- What is lost is lost for good. -/
theorem C126_for_good (X : Expat) (env : Env) (w : World) (before : List Run) (s : St) (hb : After (withXML X env) before (fresh w) = some s) (i : Nat)
    (hi : Leaked (visits X env before (fresh w) {}).log i) (rs : List Run) : Leaked (visits X env (before ++ rs) (fresh w) {}).log i := by
  obtain ⟨k, -, ht⟩ := visits_tally X env before (fresh w) {} [] tally_start
  rw [visits_append X env before (fresh w) s {} rs hb]
  obtain ⟨k', -, ht'⟩ := visits_tally X env rs s _ _ ht
  exact ht'.inv.live i (List.mem_append_right _ (ht.all i hi))

theorem lostProg_ok (env : Env) (p : Prog) : ∀ (s s' : St) (v : Int), runProg env p s = (s', .ok v) → lostProg env p s = 0 := by
  induction p with
  | ret v => intro s s' x _; rfl
  | fails e => intro s s' x _; rfl
  | act f k ih => intro s s' x h; exact ih _ s' x h
  | look k ih => intro s s' x h; exact ih _ s s' x h
  | ask k ih => intro s s' x h; exact ih _ s s' x h
  | setTolerance t k ih => intro s s' x h; exact ih _ s' x h
  | setExpected v k ih => intro s s' x h; exact ih _ s' x h
  | setImageTolerance t k ih => intro s s' x h; exact ih _ s' x h
  | setSearchPath ps k ih => intro s s' x h; exact ih _ s' x h
  | prependSearchPath p k ih => intro s s' x h; exact ih _ s' x h
  | setInFileName n k ih => intro s s' x h; exact ih _ s' x h
  | setOutFileName n k ih => intro s s' x h; exact ih _ s' x h
  | call c k ih =>
    intro s s' x h
    rw [runProg] at h
    rw [lostProg]
    rcases hr : runCall env s c with ⟨s1, f | r⟩
    · rw [hr] at h; cases h
    · rw [hr] at h; exact ih r s1 s' x h

theorem lostProg_fails (env : Env) (p : Prog) : ∀ (s s' : St) (c : Call), FailsIn env p s s' c → lostProg env p s = lostCall env s' c ∧ ∃ s1 f, runCall env s' c = (s1, .error f) := by
  induction p with
  | ret v => intro s s' c h; exact h.elim
  | fails e => intro s s' c h; exact h.elim
  | act f k ih => intro s s' c h; exact ih _ s' c h
  | look k ih => intro s s' c h; exact ih _ s s' c h
  | ask k ih => intro s s' c h; exact ih _ s s' c h
  | setTolerance t k ih => intro s s' c h; exact ih _ s' c h
  | setExpected v k ih => intro s s' c h; exact ih _ s' c h
  | setImageTolerance t k ih => intro s s' c h; exact ih _ s' c h
  | setSearchPath ps k ih => intro s s' c h; exact ih _ s' c h
  | prependSearchPath p k ih => intro s s' c h; exact ih _ s' c h
  | setInFileName n k ih => intro s s' c h; exact ih _ s' c h
  | setOutFileName n k ih => intro s s' c h; exact ih _ s' c h
  | call c k ih =>
    intro s s' c' h
    rw [FailsIn] at h
    rw [lostProg]
    rcases hr : runCall env s c with ⟨s1, f | r⟩
    · rw [hr] at h
      obtain ⟨rfl, rfl⟩ := h
      exact ⟨rfl, s1, f, hr⟩
    · rw [hr] at h; exact ih r s1 s' c' h

theorem lostProg_own (env : Env) (p : Prog) : ∀ s : St, (∀ s' c, ¬ FailsIn env p s s' c) → lostProg env p s = 0 := by
  induction p with
  | ret v => intro s _; rfl
  | fails e => intro s _; rfl
  | act f k ih => intro s h; exact ih _ h
  | look k ih => intro s h; exact ih _ s h
  | ask k ih => intro s h; exact ih _ s h
  | setTolerance t k ih => intro s h; exact ih _ h
  | setExpected v k ih => intro s h; exact ih _ h
  | setImageTolerance t k ih => intro s h; exact ih _ h
  | setSearchPath ps k ih => intro s h; exact ih _ h
  | prependSearchPath p k ih => intro s h; exact ih _ h
  | setInFileName n k ih => intro s h; exact ih _ h
  | setOutFileName n k ih => intro s h; exact ih _ h
  | call c k ih =>
    intro s h
    rw [lostProg]
    rcases hr : runCall env s c with ⟨s1, f | r⟩
    · exact absurd (by rw [FailsIn, hr]; exact ⟨rfl, rfl⟩) (h s c)
    · refine ih r s1 fun s' c' hf => h s' c' ?_
      rw [FailsIn, hr]; exact hf

theorem lostMain_quiet (X : Expat) (env : Env) (test : List Str → Prog) (fuel : Nat) (argv : List Str) (s : St)
    (h : (tryBlock (withXML X env) test fuel argv s).2.2 = none) : lostMain X env test fuel argv s = 0 := by
  simp only [tryBlock] at h
  rw [lostMain]
  rcases hp : parseArguments s.world.fs fuel { s.obj with unmatched := s.obj.unmatched + 1 } argv with ⟨o, f | rest⟩
  · rfl
  · rw [hp] at h
    simp only at h ⊢
    rcases hb : beginMeasurement (withXML X env) ⟨o, s.world⟩ with ⟨s1, f | u⟩
    · rw [hb] at h; cases h
    · rw [hb] at h
      simp only at h ⊢
      rcases hr : runProg (withXML X env) (test rest) s1 with ⟨s2, f | v⟩
      · rw [hr] at h; cases h
      · exact lostProg_ok _ _ _ _ _ hr

theorem lostCall_le (env : Env) (s : St) (c : Call) : lostCall env s c ≤ 2 := by
  rw [lostCall]
  split
  · rw [lostCompare.eq_def]
    split
    · omega
    · simp only
      split
      · split
        · omega
        · split
          · omega
          · rw [lostDifference]
            repeat' split
            all_goals omega
      · omega
  · omega

theorem lostProg_le (env : Env) (p : Prog) : ∀ s : St, lostProg env p s ≤ 2 := by
  intro s
  by_cases h : ∃ s' c, FailsIn env p s s' c
  · obtain ⟨s', c, h⟩ := h
    rw [(lostProg_fails env p s s' c h).1]
    exact lostCall_le env s' c
  · rw [lostProg_own env p s fun s' c hf => h ⟨s', c, hf⟩]
    omega

theorem lostBegin_le (X : Expat) (s : St) : lostBegin X s ≤ 1 := by
  rw [lostBegin]
  repeat' split
  all_goals first
    | omega
    | (rw [lostRead]; split <;> omega)

theorem lostMain_le (X : Expat) (env : Env) (test : List Str → Prog) (fuel : Nat) (argv : List Str) (s : St) : lostMain X env test fuel argv s ≤ 2 := by
  rw [lostMain]
  split
  · omega
  · split
    · exact (lostBegin_le X _).trans (by omega)
    · exact lostProg_le _ _ _

/-- A call of `Main` that no exception ends loses nothing. -/
theorem C126_quiet_call (X : Expat) (env : Env) (w : World) (before : List Run) (s : St) (hb : After (withXML X env) before (fresh w) = some s) (r : Run)
    (hq : (tryBlock (withXML X env) r.test r.fuel r.argv (r.before s)).2.2 = none) : CallLoses X env w before r 0 := by
  have := callLoses X env w before s hb r
  rwa [lostMain_quiet X env _ _ _ _ hq] at this

theorem lostRuns_le (X : Expat) (env : Env) (runs : List Run) : ∀ s : St, lostRuns X env runs s ≤ 2 * faults (withXML X env) runs s := by
  induction runs with
  | nil => intro s; simp [lostRuns]
  | cons r rs ih =>
    intro s
    rw [lostRuns, faults]
    have h1 : lostMain X env r.test r.fuel r.argv (r.before s) ≤ 2 * (if (tryBlock (withXML X env) r.test r.fuel r.argv (r.before s)).2.2.isSome then 1 else 0) := by
      split
      · exact lostMain_le X env _ _ _ _
      · next h => rw [lostMain_quiet X env _ _ _ _ (by simpa using h)]
    rcases main (withXML X env) r.test r.fuel r.argv (r.before s) with ⟨s1, f | v⟩
    · simpa using h1
    · have := ih s1
      simp only
      omega

/-- In a whole life at most two objects are lost for every call of `Main` that an exception ends; without exceptions nothing is lost. -/
theorem C126_bound (X : Expat) (env : Env) (runs : List Run) (w : World) :
    ∃ n, Loses (visits X env runs (fresh w) {}).log n ∧ n ≤ 2 * faults (withXML X env) runs (fresh w) :=
  ⟨_, visits_loses X env runs (fresh w), lostRuns_le X env runs (fresh w)⟩

theorem faults_quiet (env : Env) (runs : List Run) : ∀ s : St, Quiet env runs s → faults env runs s = 0 := by
  induction runs with
  | nil => intro s _; rfl
  | cons r rs ih =>
    intro s hq
    obtain ⟨h1, h2⟩ := hq
    rw [faults, h1]
    rcases hm : main env r.test r.fuel r.argv (r.before s) with ⟨s1, f | v⟩
    · rfl
    · rw [hm] at h2
      simpa using ih s1 h2

/-- Without exceptions every visitor and every parser has been destroyed in the end. -/
theorem C126_nothing_lost (X : Expat) (env : Env) (runs : List Run) (w : World) (hq : Quiet (withXML X env) runs (fresh w)) (i : Nat) :
    ¬ Leaked (visits X env runs (fresh w) {}).log i := by
  obtain ⟨n, ⟨l, -, hl, h⟩, hle⟩ := C126_bound X env runs w
  rw [faults_quiet _ _ _ hq] at hle
  have : l = [] := List.length_eq_zero_iff.mp (by omega)
  rw [h, this]
  simp

/-- Refused arguments, and files that cannot be opened, lose nothing. -/
theorem C126_not_begun (X : Expat) (env : Env) (w : World) (before : List Run) (s : St) (hb : After (withXML X env) before (fresh w) = some s) (r : Run)
    (h : ∀ o rest, parseArguments (r.before s).world.fs r.fuel { (r.before s).obj with unmatched := (r.before s).obj.unmatched + 1 } r.argv = (o, .ok rest) →
      ∀ s1 s2, openOutput ⟨o, (r.before s).world⟩ = (s1, .ok ()) → openInput s1 ≠ (s2, .ok ())) : CallLoses X env w before r 0 := by
  have hl := callLoses X env w before s hb r
  have : lostMain X env r.test r.fuel r.argv (r.before s) = 0 := by
    rw [lostMain]
    rcases hp : parseArguments (r.before s).world.fs r.fuel { (r.before s).obj with unmatched := (r.before s).obj.unmatched + 1 } r.argv with ⟨o, f | rest⟩
    · rfl
    · have h := h o rest hp
      simp only [lostBegin, beginMeasurement]
      rcases h1 : openOutput ⟨o, (r.before s).world⟩ with ⟨s1, f | u⟩
      · rfl
      · have h := h s1
        simp only [Res.andThen]
        rcases h2 : openInput s1 with ⟨s2, f | u⟩
        · rfl
        · exact absurd h2 (h s2 h1)
  rwa [this] at hl

/-- A baseline that is rejected: exactly one parser is lost. -/
theorem C126_rejected_baseline (X : Expat) (env : Env) (w : World) (before : List Run) (s : St) (hb : After (withXML X env) before (fresh w) = some s) (r : Run)
    (o : Obj) (rest : List Str)
    (hp : parseArguments (r.before s).world.fs r.fuel { (r.before s).obj with unmatched := (r.before s).obj.unmatched + 1 } r.argv = (o, .ok rest))
    (bytes : Str) (hr : Reads ⟨o, (r.before s).world⟩ bytes) (f : Fault) (hx : readXML X bytes = .error f) : CallLoses X env w before r 1 := by
  have hl := callLoses X env w before s hb r
  have : lostMain X env r.test r.fuel r.argv (r.before s) = 1 := by
    obtain ⟨s1, s2, h1, h2, h3, h4⟩ := hr
    have hx' : (withXML X env).readXML bytes = .error f := hx
    rw [lostMain, hp]
    simp only [lostBegin, beginMeasurement, h1, h2, Res.andThen, startOrRead, h3, h4, hx', if_true, lostRead, hx]
  rwa [this] at hl

/-- A test that ends itself, also by an exception, loses nothing. -/
theorem C126_own_end (X : Expat) (env : Env) (w : World) (before : List Run) (s : St) (hb : After (withXML X env) before (fresh w) = some s) (r : Run)
    (o : Obj) (rest : List Str) (s1 : St)
    (hp : parseArguments (r.before s).world.fs r.fuel { (r.before s).obj with unmatched := (r.before s).obj.unmatched + 1 } r.argv = (o, .ok rest))
    (hbegin : beginMeasurement (withXML X env) ⟨o, (r.before s).world⟩ = (s1, .ok ())) (hf : ∀ s' c, ¬ FailsIn (withXML X env) (r.test rest) s1 s' c) :
    CallLoses X env w before r 0 := by
  have hl := callLoses X env w before s hb r
  have : lostMain X env r.test r.fuel r.argv (r.before s) = 0 := by
    rw [lostMain, hp]
    simp only [hbegin]
    exact lostProg_own _ _ _ hf
  rwa [this] at hl

theorem lostMain_fails (X : Expat) (env : Env) (r : Run) (s : St) (o : Obj) (rest : List Str) (s1 s2 : St) (c : Call)
    (hp : parseArguments (r.before s).world.fs r.fuel { (r.before s).obj with unmatched := (r.before s).obj.unmatched + 1 } r.argv = (o, .ok rest))
    (hbegin : beginMeasurement (withXML X env) ⟨o, (r.before s).world⟩ = (s1, .ok ())) (hf : FailsIn (withXML X env) (r.test rest) s1 s2 c) :
    lostMain X env r.test r.fuel r.argv (r.before s) = lostCall (withXML X env) s2 c := by
  rw [lostMain, hp]
  simp only [hbegin]
  exact (lostProg_fails _ _ _ _ _ hf).1

theorem opposite_cases (s : St) (c : Call) : (∃ b rest, s.compareMode = true ∧ s.obj.input = b :: rest ∧ (b.name = c.meas.name ∧ b.type = c.meas.type) ∧ opposite s c = some b) ∨
    (opposite s c = none ∧ ∀ env, lostCall env s c = 0) := by
  rw [opposite]
  by_cases hm : s.compareMode = true
  · rw [if_pos hm]
    cases hi : s.obj.input with
    | nil => exact Or.inr ⟨rfl, fun env => by rw [lostCall, if_pos hm, lostCompare.eq_def, hi]⟩
    | cons b rest =>
      by_cases hc : b.name = c.meas.name ∧ b.type = c.meas.type
      · exact Or.inl ⟨b, rest, hm, rfl, hc, by simp [hc]⟩
      · refine Or.inr ⟨by simpa [Option.filter] using hc, fun env => ?_⟩
        rw [lostCall, if_pos hm, lostCompare.eq_def, hi]
        exact if_neg hc
  · rw [if_neg hm]
    exact Or.inr ⟨rfl, fun env => by rw [lostCall, if_neg hm]⟩

theorem compareVisit_input (env : Env) (s : St) (l : List Meas) (t : Bool) (b m : Meas) :
    (compareVisit env { s with obj := { s.obj with input := l } } t b m).2.2.2 = (compareVisit env s t b m).2.2.2 := by
  rw [compareVisit, compareVisit]
  cases imagePair env b m <;> rfl

/-- A comparison that ends while the values are compared (by an exception; in the model, where memory does not run out, by undefined behaviour): exactly the compare visitor is lost. -/
theorem C126_comparison_fails (X : Expat) (env : Env) (w : World) (before : List Run) (s : St) (hb : After (withXML X env) before (fresh w) = some s) (r : Run)
    (o : Obj) (rest : List Str) (s1 s2 : St) (c : Call)
    (hp : parseArguments (r.before s).world.fs r.fuel { (r.before s).obj with unmatched := (r.before s).obj.unmatched + 1 } r.argv = (o, .ok rest))
    (hbegin : beginMeasurement (withXML X env) ⟨o, (r.before s).world⟩ = (s1, .ok ())) (hf : FailsIn (withXML X env) (r.test rest) s1 s2 c)
    (b b' : Meas) (ho : opposite s2 c = some b) (hloc : locateBaseline s2 b c.meas = .ok b') (f : Fault)
    (hv : (compareVisit (withXML X env) s2 c.tolerant b' c.meas).2.2.2 = .error f) : CallLoses X env w before r 1 := by
  have hl := callLoses X env w before s hb r
  rw [lostMain_fails X env r s o rest s1 s2 c hp hbegin hf] at hl
  have : lostCall (withXML X env) s2 c = 1 := by
    rcases opposite_cases s2 c with ⟨b0, rest', hm, hi, hc, hob⟩ | ⟨h, -⟩
    · rw [ho] at hob
      cases hob
      rw [lostCall, if_pos hm, lostCompare.eq_def, hi]
      simp only
      rw [if_pos hc]
      have h1 : locateBaseline { s2 with obj := { s2.obj with input := rest' } } b c.meas = .ok b' := hloc
      rw [h1]
      have h2 := (compareVisit_input (withXML X env) s2 rest' c.tolerant b' c.meas).trans hv
      simp only
      rcases hq : compareVisit (withXML X env) { s2 with obj := { s2.obj with input := rest' } } c.tolerant b' c.meas with ⟨s3, b3, t3, f3 | same⟩
      · rfl
      · rw [hq] at h2; cases h2
    · rw [h] at ho; cases ho
  rwa [this] at hl

/-- A comparison that has an answer and ends by an exception while the difference is reported: exactly two visitors are lost. -/
theorem C126_difference_fails (X : Expat) (env : Env) (w : World) (before : List Run) (s : St) (hb : After (withXML X env) before (fresh w) = some s) (r : Run)
    (o : Obj) (rest : List Str) (s1 s2 : St) (c : Call)
    (hp : parseArguments (r.before s).world.fs r.fuel { (r.before s).obj with unmatched := (r.before s).obj.unmatched + 1 } r.argv = (o, .ok rest))
    (hbegin : beginMeasurement (withXML X env) ⟨o, (r.before s).world⟩ = (s1, .ok ())) (hf : FailsIn (withXML X env) (r.test rest) s1 s2 c)
    (b b' : Meas) (ho : opposite s2 c = some b) (hloc : locateBaseline s2 b c.meas = .ok b') (same : Bool)
    (hv : (compareVisit (withXML X env) s2 c.tolerant b' c.meas).2.2.2 = .ok same) : CallLoses X env w before r 2 := by
  have hl := callLoses X env w before s hb r
  rw [lostMain_fails X env r s o rest s1 s2 c hp hbegin hf] at hl
  obtain ⟨-, s5, f5, hrun⟩ := lostProg_fails _ _ _ _ _ hf
  have : lostCall (withXML X env) s2 c = 2 := by
    rcases opposite_cases s2 c with ⟨b0, rest', hm, hi, hc, hob⟩ | ⟨h, -⟩
    · rw [ho] at hob
      cases hob
      rw [runCall, if_pos hm, compareMeasurement, hi] at hrun
      rw [lostCall, if_pos hm, lostCompare.eq_def, hi]
      simp only at hrun ⊢
      rw [if_pos hc] at hrun ⊢
      have h1 : locateBaseline { s2 with obj := { s2.obj with input := rest' } } b c.meas = .ok b' := hloc
      rw [h1] at hrun ⊢
      have h2 := (compareVisit_input (withXML X env) s2 rest' c.tolerant b' c.meas).trans hv
      simp only at hrun ⊢
      rcases hq : compareVisit (withXML X env) { s2 with obj := { s2.obj with input := rest' } } c.tolerant b' c.meas with ⟨s3, b3, t3, f3 | same'⟩
      · rw [hq] at h2; cases h2
      · rw [hq] at hrun
        cases same' with
        | true => simp at hrun
        | false =>
          simp only [Bool.false_eq_true, if_false] at hrun ⊢
          rw [lostDifference]
          rcases hd : differenceMeasurement (withXML X env) s3 t3 b3 with ⟨s4, f4 | u⟩
          · rfl
          · rw [hd] at hrun
            simp [Res.andThen] at hrun
    · rw [h] at ho; cases ho
  rwa [this] at hl

/-- In an `itk::Regression` a measurement of an image file that ends the test by an exception (C75: for example because the file cannot be read) loses exactly two visitors, if the
baseline has a measurement of an image file of that name next. -/
theorem C126_image_exception (X : Expat) (env : Env) (im : ImageEnv) (him : env.image = some im) (w : World) (before : List Run) (s : St)
    (hb : After (withXML X env) before (fresh w) = some s) (r : Run) (o : Obj) (rest : List Str) (s1 s2 : St) (fileName name : Str)
    (hp : parseArguments (r.before s).world.fs r.fuel { (r.before s).obj with unmatched := (r.before s).obj.unmatched + 1 } r.argv = (o, .ok rest))
    (hbegin : beginMeasurement (withXML X env) ⟨o, (r.before s).world⟩ = (s1, .ok ()))
    (hf : FailsIn (withXML X env) (r.test rest) s1 s2 (.fileITK fileName name)) (f : FileM) (ho : opposite s2 (.fileITK fileName name) = some (.file f)) :
    CallLoses X env w before r 2 := by
  obtain ⟨b', hl, h1, h2, -, hb'⟩ := locate_eq s2 (.file f) (Call.fileITK fileName name).meas
  simp only [Call.meas] at hb'
  subst hb'
  have him' : (withXML X env).image = some im := him
  refine C126_difference_fails X env w before s hb r o rest s1 s2 _ hp hbegin hf (.file f) _ ho hl
    (im.compare s2.world s2.obj.imageTol (cstr fileName) (cstr (Regression.Spec.located s2.world s2.obj.searchPath f.fileName))) ?_
  simp only [compareVisit, imagePair, him', Call.meas, if_true]

end Verif.Life
