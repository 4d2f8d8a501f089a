import Verif.Whole.TwoModes
import Verif.Whole.StepsSpec

/-!
# Property C129: tests that set tolerances between their measurements
-/

set_option linter.unusedSimpArgs false

namespace Verif.Whole
open Verif.Measurement Verif.Measurement.Spec Verif.Regression Verif.Regression.Spec Verif.Decimal Verif.Decimal.Spec Verif.Xml Verif.Xml.Spec Spec RepoTests
open Verif.Itk.Spec (LookedUp)
open Verif.Pipe.Spec (expectation)

/-- The calls of `SetRelativeTolerance` (tfRegressionTest.cpp:109-111) and of the measurement functions (tfRegressionTest.h:154-164) one after the other, and `return 0`. -/
def stepsProg : List Step → Prog
  | [] => .ret 0
  | .tolerance t :: l => .setTolerance t (stepsProg l)
  | .measure x :: l => .call x.call fun _ => stepsProg l

/-- A test that looks at its arguments and at `GetCompareMode()` and takes the steps chosen by them. -/
def stepsTest (steps : List Str → Bool → List Step) (argv : List Str) : Prog := .ask fun s => stepsProg (steps argv s.compareMode)

theorem stepsProg_keeps (os : Option Str) : ∀ l : List Step, Keeps os (stepsProg l)
  | [] => trivial
  | .tolerance _ :: l => stepsProg_keeps os l
  | .measure _ :: l => fun _ => stepsProg_keeps os l

/-- The calls of the steps. -/
def stepCalls (l : List Step) : List Call := (inForce 0 l).map fun p => p.2.call

theorem inForce_items : ∀ (l : List Step) (s t : ℚ), (inForce s l).map (·.2) = (inForce t l).map (·.2)
  | [], _, _ => rfl
  | .tolerance _ :: _, _, _ => rfl
  | .measure x :: l, s, t => by simp only [inForce, List.map_cons, inForce_items l s t]

theorem inForce_calls (l : List Step) (s t : ℚ) : (inForce s l).map (fun p => p.2.call) = (inForce t l).map fun p => p.2.call := by
  have := congrArg (List.map Item.call) (inForce_items l s t)
  rw [List.map_map, List.map_map] at this
  exact this

theorem steps_record (env : Env) : ∀ (l : List Step) (s : St), s.obj.is = none → s.obj.inFileName = [] →
    (observed env (stepsProg l) s).map (·.call) = stepCalls l ∧ (runProg env (stepsProg l) s).2 = .ok 0 ∧ (runProg env (stepsProg l) s).1.world.fs = s.world.fs ∧
    (runProg env (stepsProg l) s).1.obj.is = none ∧ (runProg env (stepsProg l) s).1.obj.inFileName = [] ∧ (runProg env (stepsProg l) s).1.obj.expected = s.obj.expected := by
  intro l
  induction l with
  | nil => intro s h1 h2; exact ⟨rfl, rfl, rfl, h1, h2, rfl⟩
  | cons x l ih =>
    intro s h1 h2
    cases x with
    | tolerance t =>
      obtain ⟨a1, a2, a3, a4, a5, a6⟩ := ih { s with obj := { s.obj with tolerance := t } } h1 h2
      simp only [stepsProg, observed, runProg]
      refine ⟨?_, a2, a3, a4, a5, a6⟩
      rw [a1, stepCalls, stepCalls, inForce]
      exact inForce_calls l _ _
    | measure x =>
      have hc := runCall_record env s x.call h1 h2
      have ho := emit_obj s (line (recordedMeas x.call))
      obtain ⟨a1, a2, a3, a4, a5, a6⟩ := ih (s.emit (line (recordedMeas x.call))) (by rw [ho, h1]) (by rw [ho, h2])
      have hfs : (s.emit (line (recordedMeas x.call))).world.fs = s.world.fs := by rw [St.emit]; split <;> rfl
      simp only [stepsProg, observed, runProg, hc]
      refine ⟨?_, a2, by rw [a3, hfs], a4, a5, by rw [a6, ho]⟩
      rw [List.map_cons, a1]
      rfl

/-- A run of the steps in compare mode ends normally and observes the measurements in order, each with the tolerance in force. -/
theorem steps_run (env : Env) : ∀ (l : List Step) (s : St) (bytes : Str), s.obj.is = some bytes →
    (∀ b ∈ s.obj.input, Plainly b ∧ ∃ d, b = .data d) → (∀ p ∈ inForce s.obj.tolerance l, p.2.Valid) →
    (∀ b ∈ s.obj.input, ∀ p ∈ inForce s.obj.tolerance l, Comparable env p.1 b p.2.call) →
    (∀ b ∈ s.obj.input, ∀ p ∈ inForce s.obj.tolerance l, ∀ content name, p.2.call = .textPlain content name → b.name = name → b.type = b!"text/plain" → ∃ t, env.diff b.content content = .ok t) →
    ∃ s', runProg env (stepsProg l) s = (s', .ok 0) ∧ s'.world.fs = s.world.fs ∧ s'.obj.expected = s.obj.expected ∧
      (s'.obj.inFileName = s.obj.inFileName ∧ s'.obj.searchPath = s.obj.searchPath) ∧
      (observed env (stepsProg l) s).map (fun o => (o.tolerance, o.call)) = (inForce s.obj.tolerance l).map fun p => (p.1, p.2.call) := by
  intro l
  induction l with
  | nil => intro s _ _ _ _ _ _; exact ⟨s, rfl, rfl, rfl, ⟨rfl, rfl⟩, rfl⟩
  | cons x l ih =>
    intro s bytes his hb hv hu hd
    cases x with
    | tolerance t =>
      obtain ⟨s', g⟩ := ih { s with obj := { s.obj with tolerance := t } } bytes his hb hv hu hd
      exact ⟨s', g⟩
    | measure x =>
      have hx : x.Valid := hv (s.obj.tolerance, x) (by simp [inForce])
      obtain ⟨s', r, h1, h2, h3, h4, h6, h5⟩ := data_call env s x.call ⟨_, call_data x⟩ bytes his hb (by
          rw [call_data]
          show x.data.name ≠ []
          rw [data_name]; exact hx.1)
        (fun b hb => hu b hb (s.obj.tolerance, x) (by simp [inForce])) (fun b hb y n h => hd b hb (s.obj.tolerance, x) (by simp [inForce]) y n h)
      have hsub : ∀ b ∈ s'.obj.input, b ∈ s.obj.input := by rw [h5]; exact fun b hb => List.mem_of_mem_drop hb
      obtain ⟨s'', g1, g2, g3, g6, g4⟩ := ih s' bytes h4 (fun b hb' => hb b (hsub b hb'))
        (fun p hp => hv p (by rw [h6] at hp; simp [inForce, hp]))
        (fun b hb' p hp => hu b (hsub b hb') p (by rw [h6] at hp; simp [inForce, hp]))
        (fun b hb' p hp => hd b (hsub b hb') p (by rw [h6] at hp; simp [inForce, hp]))
      rw [stepsProg, runProg, observed, h1]
      obtain ⟨i, u, hfr⟩ := runCall_frame env s x.call
      rw [h1] at hfr
      simp only at hfr
      refine ⟨s'', g1, by rw [g2, h2], by rw [g3, h3], by rw [g6.1, g6.2, hfr]; exact ⟨rfl, rfl⟩, ?_⟩
      simp only [List.map_cons, g4, h6, inForce, St.obs]

theorem failures_at (env : Env) (hnum : env.num = ieee) : ∀ (xs : List Item) (ys : List (ℚ × Item)) (os : List Obs),
    (∀ x ∈ xs, x.Valid) → (∀ y ∈ ys, y.2.Valid ∧ 0 ≤ y.1 ∧ y.1 ≤ 1) → os.map (fun o => (o.tolerance, o.call)) = ys.map (fun p => (p.1, p.2.call)) →
    unlikeAt MayPass xs ys ≤ failures env (xs.map fun x => recordedMeas x.call) os ∧
      failures env (xs.map fun x => recordedMeas x.call) os ≤ unlikeAt MustPass xs ys := by
  intro xs ys
  induction ys generalizing xs with
  | nil =>
    intro os _ _ ho
    have : os = [] := by simpa using ho
    subst this
    cases xs <;> simp [unlikeAt, failures]
  | cons y ys ih =>
    intro os hx hy ho
    cases os with
    | nil => simp at ho
    | cons o os =>
      simp only [List.map_cons, List.cons.injEq, Prod.mk.injEq] at ho
      cases xs with
      | nil =>
        have := ih [] os (by simp) (fun z hz => hy z (by simp [hz])) ho.2
        simp only [List.map_nil, unlikeAt, failures] at this ⊢
        omega
      | cons x xs =>
        have := ih xs os (fun z hz => hx z (by simp [hz])) (fun z hz => hy z (by simp [hz])) ho.2
        obtain ⟨hv, h0, h1⟩ := hy y (by simp)
        obtain ⟨g1, g2⟩ := agree_between env hnum y.1 h0 h1 x y.2 (hx x (by simp)) hv o ho.1.2 ho.1.1
        obtain ⟨t, y⟩ := y
        simp only [List.map_cons, recorded_data, unlikeAt, failures] at this g1 g2 ⊢
        by_cases a : MustPass t x y
        · rw [if_pos a, if_pos (g1 a), if_pos (g2 (g1 a))]; omega
        · rw [if_neg a]
          by_cases b : Agree env (.data x.data) o
          · rw [if_pos b, if_pos (g2 b)]; omega
          · rw [if_neg b]
            split <;> omega

/-- **C129.** A test that sets tolerances (from 0 to 1) between its measurements, all of them depending on its arguments and on whether it records or compares, is recorded and later compared with the recording,
each time with any options and any further arguments.  The recording run returns 0.  The comparing run returns 0 if it is told to expect anything but 0; otherwise at most the number of the values measured
when comparing that need not be accepted, with the tolerance set last before they are measured, against the value recorded at their position, and at least the number of those that must not be. -/
theorem C129_tolerances (X : Expat) (hX : Conforms X) (mem : (Int → Nat) × (Int → Nat)) (steps : Nat) (tol tol' : ℚ) (test : List Str → Bool → List Step)
    (prog : Str) (ps : List (Str × Str)) (args : List Str) (fuel : Nat) (w : World) (hw : Comment (commentText w)) (f : Str)
    (hopt : ∀ p ∈ ps, IsOption p.1) (href : ∀ p ∈ ps, ¬ Refused w.fs p) (hstop : Stops args) (hfuel : ps.length < fuel)
    (hI : lastValue b!"-I" ps = none) (hO : lastValue b!"-O" ps = some f) (hf : f ≠ []) (hcreate : w.creatable (cstr f) = true)
    (hnew : w.fs.stat (cstr f) = none ∨ (w.fs.canRead (cstr f) = true ∧ w.fs.canWrite (cstr f) = true))
    (w1 : World) (hw1 : (main (whole X mem steps) (stepsTest test) fuel (prog :: (flat ps ++ args)) ⟨{}, w⟩).1.world = w1)
    (prog' : Str) (ps' : List (Str × Str)) (args' : List Str) (fuel' : Nat) (w2 : World) (name file : Str)
    (hopt' : ∀ p ∈ ps', IsOption p.1) (href' : ∀ p ∈ ps', ¬ Refused w2.fs p) (hstop' : Stops args') (hfuel' : ps'.length < fuel')
    (hI' : lastValue b!"-I" ps' = some name) (hn : name ≠ []) (hO' : lastValue b!"-O" ps' = none)
    (hfile : LookedUp w2.fs name (values b!"-P" ps').reverse file) (hdoc : w2.openRead file = w1.openRead f)
    (xs : List Item) (ys : List (ℚ × Item)) (hxs : (inForce tol (test (prog :: args) false)).map (·.2) = xs) (hys : inForce tol' (test (prog' :: args') true) = ys)
    (hx : ∀ x ∈ xs, x.Valid) (hy : ∀ y ∈ ys, y.2.Valid ∧ 0 ≤ y.1 ∧ y.1 ≤ 1)
    (hplain : ∀ x ∈ xs, ∀ y ∈ ys, ∀ a b, x.value = .plain a → y.2.value = .plain b → x.name = y.2.name → Diff.Spec.Fits a b ∧ Diff.Spec.TopClear a b ∧ Diff.Spec.Enough steps a b) :
    (main (whole X mem steps) (stepsTest test) fuel (prog :: (flat ps ++ args)) ⟨{}, w⟩).2 = .ok 0 ∧
    ∃ n : Nat, (main (whole X mem steps) (stepsTest test) fuel' (prog' :: (flat ps' ++ args')) ⟨{ tolerance := tol' }, w2⟩).2 = .ok (if expectation ps' ≠ 0 then 0 else (n : Int)) ∧
      unlikeAt MayPass xs ys ≤ n ∧ n ≤ unlikeAt MustPass xs ys := by
  have hcs : stepCalls (test (prog :: args) false) = xs.map Item.call := by
    rw [← hxs, List.map_map, stepCalls]
    exact inForce_calls _ _ _
  obtain ⟨r1, r2⟩ := record_general (whole X mem steps) (stepsTest test) (xs.map Item.call) prog ps args fuel w f 0 hopt href hstop hfuel hI hO hf hcreate hnew
    (fun _ => stepsProg_keeps _ _) (by
      intro s h1 h2 _
      have hm : s.settings.compareMode = false := recording s h1 h2
      obtain ⟨a1, a2⟩ := steps_record (whole X mem steps) (test (prog :: args) false) s h1 h2
      simp only [stepsTest, observed, runProg, hm]
      exact ⟨by rw [a1, hcs], a2⟩)
  refine ⟨by rw [r1]; split <;> rfl, ?_⟩
  rw [hw1] at r2
  rw [r2] at hdoc
  have hread := read_recording X hX (xs.map Item.call) w hw (fun c hc => by
    obtain ⟨x, hx', rfl⟩ := List.mem_map.mp hc
    refine recorded_clean _ x.data (call_data x) ?_ ?_
    · rw [call_data]
      show ∀ c ∈ x.data.name, AttrChar c
      rw [data_name]; exact (hx x hx').2.1
    · rw [call_data]; exact data_printable x (hx x hx'))
  rw [show readXML X = (whole X mem steps).readXML from rfl] at hread
  generalize header w ++ _ ++ footer = bytes at hread hdoc
  have hms : ∀ b ∈ (xs.map Item.call).map recordedMeas, Plainly b ∧ ∃ d, b = .data d := by
    intro b hb
    obtain ⟨c, hc, rfl⟩ := List.mem_map.mp hb
    obtain ⟨x, hx', rfl⟩ := List.mem_map.mp hc
    exact ⟨recorded_plainly _, x.data, recorded_data x⟩
  obtain ⟨os, -, ho2, ho3⟩ := compare_general tol' (whole X mem steps) bytes ((xs.map Item.call).map recordedMeas) hread (fun b hb => (hms b hb).1)
    (stepsTest test) (ys.map fun p => p.2.call) prog' ps' args' fuel' w2 name file 0 hopt' href' hstop' hfuel' hI' hn hO' hfile hdoc
    (by
      intro c hc
      obtain ⟨y, hy', rfl⟩ := List.mem_map.mp hc
      rw [call_data]
      show y.2.data.name ≠ []
      rw [data_name]; exact (hy y hy').1.1)
    (fun os => os.map (fun o => (o.tolerance, o.call)) = ys.map fun p => (p.1, p.2.call))
    (by
      intro s1 h1 h2 h3 h4
      have hm : s1.settings.compareMode = true := compareMode_is h1
      have hys' : inForce s1.obj.tolerance (test (prog' :: args') true) = ys := by rw [h4, hys]
      obtain ⟨s2, g1, g2, g3, g6, g4⟩ := steps_run (whole X mem steps) (test (prog' :: args') true) s1 bytes h1 (by rw [h2]; exact hms) (by rw [hys']; exact fun p hp => (hy p hp).1)
        (by
          rw [hys', h2]
          intro b hb p hp
          obtain ⟨c', hc', rfl⟩ := List.mem_map.mp hb
          obtain ⟨x, hx', rfl⟩ := List.mem_map.mp hc'
          obtain ⟨v1, v2, v3⟩ := hy p hp
          intro e d k he hd hke hkd _
          rw [recorded_data] at he
          rw [call_data] at hd
          cases he
          cases hd
          exact comparable_items p.1 v2 v3 x p.2 (hx x hx') v1 k hke hkd)
        (by
          rw [hys', h2]
          intro b hb p hp content name hye hn ht
          obtain ⟨c', hc', rfl⟩ := List.mem_map.mp hb
          obtain ⟨x, hx', rfl⟩ := List.mem_map.mp hc'
          rw [recorded_data] at hn ht ⊢
          obtain ⟨y1, y2⟩ := call_plain p.2 content name hye
          obtain ⟨a, x1, x2⟩ := data_plain x ht
          obtain ⟨p1, p2, p3⟩ := hplain x hx' p hp a content x1 y1 (by rw [y2, ← hn]; exact (data_name x).symm)
          obtain ⟨t, ht⟩ := Diff.C15_total a content p1 p2
          refine ⟨t, ?_⟩
          show Diff.diff (some mem) steps x.data.content content = .ok t
          rw [x2]
          exact ht mem steps p3)
      rw [hys'] at g4
      simp only [stepsTest, observed, runProg, hm]
      refine ⟨s2, g1, g2, g3, g6, ?_, g4⟩
      have := congrArg (List.map Prod.snd) g4
      rw [List.map_map, List.map_map] at this
      exact this)
  have := failures_at (whole X mem steps) rfl xs ys os hx hy ho2
  rw [ho3, List.map_map]
  refine ⟨_, ?_, this⟩
  by_cases he : expectation ps' = 0
  · rw [if_neg (by simp [he]), if_neg (by simp [he])]; rfl
  · rw [if_pos (Ne.symm he), if_pos he]

/-- What tfRegressionTestTest2.cxx:12-25 does, recording and comparing. -/
def steps2 : List Step := [.measure ⟨b!"TextString", .string b!"string text value", true⟩, .measure ⟨b!"TextPlain", .plain b!"this is\n some plain text\n", true⟩,
  .measure ⟨b!"NumericInteger", .integer 0, false⟩, .measure ⟨b!"NumericFloat", .float (9227469 / 8388608), true⟩, .tolerance (64 / 2 ^ 52),
  .measure ⟨b!"NumericDouble", .double (2501999792983609 / 1125899906842624), true⟩, .measure ⟨b!"NumericBoolean", .boolean true, false⟩]

theorem main_same (env : Env) (t1 t2 : List Str → Prog) (h : ∀ a s, runProg env (t1 a) s = runProg env (t2 a) s) (fuel : Nat) (argv : List Str) (s : St) :
    main env t1 fuel argv s = main env t2 fuel argv s := by
  simp only [main, tryBlock, h]

theorem test2_is (env : Env) (argv : List Str) (s : St) : runProg env (test2 argv) s = runProg env (stepsTest (fun _ _ => steps2) argv) s := by
  have d1 : single.nearest (11 / 10) = 9227469 / 8388608 := by decide +kernel
  have d2 : double.nearest (20 / 9) = 2501999792983609 / 1125899906842624 := by decide +kernel
  rw [test2, d1, d2]
  rfl

theorem steps2_valid (tol : ℚ) (h0 : 0 ≤ tol) (h1 : tol ≤ 1) : ∀ y ∈ inForce tol steps2, y.2.Valid ∧ 0 ≤ y.1 ∧ y.1 ≤ 1 := by
  have f1 : IsFloat (9227469 / 8388608) := ⟨9227469, -23, by norm_num, by norm_num, by norm_num, by norm_num⟩
  have d1 : IsDouble (2501999792983609 / 1125899906842624) := ⟨2501999792983609, -50, by norm_num, by norm_num, by norm_num, by norm_num⟩
  simp only [steps2, inForce, List.mem_cons, List.not_mem_nil, or_false, forall_eq_or_imp, forall_eq]
  exact ⟨⟨⟨by decide, by decide, (by decide : ∀ c ∈ b!"string text value", Printable c)⟩, h0, h1⟩,
    ⟨⟨by decide, by decide, (by decide : ∀ c ∈ b!"this is\n some plain text\n", Printable c)⟩, h0, h1⟩, ⟨⟨by decide, by decide, (by norm_num : |(0 : Int)| < 2 ^ 30)⟩, h0, h1⟩,
    ⟨⟨by decide, by decide, f1⟩, h0, h1⟩, ⟨⟨by decide, by decide, d1⟩, by norm_num, by norm_num⟩, ⟨⟨by decide, by decide, trivial⟩, by norm_num, by norm_num⟩⟩

theorem steps2_alike (tol : ℚ) (htol : tol = 0 ∨ (5 / 10 ^ 6 ≤ tol ∧ tol ≤ 1)) : unlikeAt MustPass ((inForce 0 steps2).map (·.2)) (inForce tol steps2) = 0 := by
  have h : tol ≠ 0 → 0 ≤ tol - 5 / 10 ^ 6 := by
    intro h
    rcases htol with h' | h'
    · exact absurd h' h
    · linarith [h'.1]
  have h' : tol ≠ 0 → Close (tol - 5 / 10 ^ 6) (9227469 / 8388608) (9227469 / 8388608) := by
    intro hne
    left
    rw [sub_self, abs_zero]
    exact mul_nonneg (h hne) (abs_nonneg _)
  have h2 : Close (64 / 2 ^ 52 - 5 / 10 ^ 15) (2501999792983609 / 1125899906842624) (2501999792983609 / 1125899906842624) := by
    left
    rw [sub_self, abs_zero]
    exact mul_nonneg (by norm_num) (abs_nonneg _)
  simp only [steps2, inForce, List.map_cons, List.map_nil, unlikeAt]
  rw [if_pos ⟨rfl, rfl⟩, if_pos ⟨rfl, rfl⟩, if_pos ⟨rfl, by simp⟩, if_pos ⟨rfl, by
    simp only
    split
    · next h => exact h' h.2
    · trivial⟩, if_pos ⟨rfl, by
    simp only
    split
    · exact h2
    · trivial⟩, if_pos ⟨rfl, rfl⟩]

/-- **C129.** The project's own test of measurements (tfRegressionTestTest2), which sets a tolerance of its own before it measures a double, passes when it is compared with any recording of itself, whatever the
options, the arguments and the tolerance of the comparing object (0, or at least 5 in a million). -/
theorem C129_test2 (X : Expat) (hX : Conforms X) (mem : (Int → Nat) × (Int → Nat)) (steps : Nat) (hsteps : 40 ≤ steps) (tol : ℚ) (htol : tol = 0 ∨ (5 / 10 ^ 6 ≤ tol ∧ tol ≤ 1))
    (prog : Str) (ps : List (Str × Str)) (args : List Str) (fuel : Nat) (w : World) (hw : Comment (commentText w)) (f : Str)
    (hopt : ∀ p ∈ ps, IsOption p.1) (href : ∀ p ∈ ps, ¬ Refused w.fs p) (hstop : Stops args) (hfuel : ps.length < fuel)
    (hI : lastValue b!"-I" ps = none) (hO : lastValue b!"-O" ps = some f) (hf : f ≠ []) (hcreate : w.creatable (cstr f) = true)
    (hnew : w.fs.stat (cstr f) = none ∨ (w.fs.canRead (cstr f) = true ∧ w.fs.canWrite (cstr f) = true))
    (w1 : World) (hw1 : (main (whole X mem steps) test2 fuel (prog :: (flat ps ++ args)) ⟨{}, w⟩).1.world = w1)
    (prog' : Str) (ps' : List (Str × Str)) (args' : List Str) (fuel' : Nat) (w2 : World) (name file : Str)
    (hopt' : ∀ p ∈ ps', IsOption p.1) (href' : ∀ p ∈ ps', ¬ Refused w2.fs p) (hstop' : Stops args') (hfuel' : ps'.length < fuel')
    (hI' : lastValue b!"-I" ps' = some name) (hn : name ≠ []) (hO' : lastValue b!"-O" ps' = none)
    (hfile : LookedUp w2.fs name (values b!"-P" ps').reverse file) (hdoc : w2.openRead file = w1.openRead f) :
    (main (whole X mem steps) test2 fuel (prog :: (flat ps ++ args)) ⟨{}, w⟩).2 = .ok 0 ∧
    (main (whole X mem steps) test2 fuel' (prog' :: (flat ps' ++ args')) ⟨{ tolerance := tol }, w2⟩).2 = .ok 0 := by
  simp only [main_same _ _ _ (test2_is (whole X mem steps))] at hw1 ⊢
  have ht : 0 ≤ tol ∧ tol ≤ 1 := by
    rcases htol with rfl | h
    · norm_num
    · exact ⟨by linarith [h.1], h.2⟩
  have hval := steps2_valid tol ht.1 ht.2
  have hx : ∀ x ∈ (inForce 0 steps2).map (·.2), x.Valid := by
    intro x hx
    rw [inForce_items steps2 0 tol] at hx
    obtain ⟨y, hy, rfl⟩ := List.mem_map.mp hx
    exact (hval y hy).1
  obtain ⟨g1, n, g2, -, g4⟩ := C129_tolerances X hX mem steps 0 tol (fun _ _ => steps2) prog ps args fuel w hw f hopt href hstop hfuel hI hO hf hcreate hnew w1 hw1
    prog' ps' args' fuel' w2 name file hopt' href' hstop' hfuel' hI' hn hO' hfile hdoc _ _ rfl rfl hx hval (by
      have one : ∀ y ∈ (inForce tol steps2).map (·.2), ∀ a, y.value = .plain a → a = b!"this is\n some plain text\n" := by
        intro y hy a h
        simp only [steps2, inForce, List.map_cons, List.map_nil, List.mem_cons, List.not_mem_nil, or_false] at hy
        rcases hy with rfl | rfl | rfl | rfl | rfl | rfl <;> simp at h
        exact h.symm
      intro x hx y hy a b hxa hyb _
      have ha := one x (by rw [← inForce_items steps2 0 tol]; exact hx) a hxa
      have hb := one y.2 (List.mem_map.mpr ⟨y, hy, rfl⟩) b hyb
      subst ha hb
      refine ⟨by rw [Diff.Spec.Fits]; decide +kernel, by rw [Diff.topClear_iff]; decide +kernel, ?_⟩
      have : Diff.Spec.Enough 40 b!"this is\n some plain text\n" b!"this is\n some plain text\n" := by rw [Diff.Spec.Enough]; decide +kernel
      rw [Diff.Spec.Enough] at this ⊢
      omega)
  refine ⟨g1, ?_⟩
  rw [g2]
  rw [steps2_alike tol htol] at g4
  have : n = 0 := by omega
  subst this
  simp

/-- The world left by recording with `-R 0`. -/
def recordedTest2 : World := (main (whole reference (fun _ => 0, fun _ => 0) 40) test2 3 [b!"prog", b!"-R", b!"0", b!"-O", b!"f"] ⟨{}, plainWorld⟩).1.world

theorem recordedTest2_file : Path.isFile recordedTest2.fs b!"f" = true ∧ Path.isReadable recordedTest2.fs b!"f" = true := by
  unfold recordedTest2
  constructor <;> decide +kernel

/-- Compared by an object with tolerance 1/10. -/
example : (main (whole reference (fun _ => 0, fun _ => 0) 40) test2 3 [b!"prog", b!"-I", b!"f", b!"-R", b!"0", b!"more"] ⟨{ tolerance := 1 / 10 }, recordedTest2⟩).2 = .ok 0 :=
  (C129_test2 reference reference_conforms (fun _ => 0, fun _ => 0) 40 (by decide) (1 / 10) (by norm_num) b!"prog" [(b!"-R", b!"0"), (b!"-O", b!"f")] [] 3 plainWorld plain_comment b!"f"
    (by simp [IsOption]) (by simp [Refused, Path.isFile]) (by simp [Stops, IsOption]) (by decide) (by decide) (by decide) (by decide) rfl (.inl rfl) recordedTest2 rfl
    b!"prog" [(b!"-I", b!"f"), (b!"-R", b!"0")] [b!"more"] 3 recordedTest2 b!"f" b!"f" (by simp [IsOption]) (by simp [Refused, recordedTest2_file]) (by simp [Stops, IsOption]) (by decide) (by decide) (by decide) (by decide)
    (.asIs) rfl).2

/-- The tolerance holds for what is measured after it: 101 for 100 is accepted with a tolerance of 1/10 only. -/
example : unlikeAt MayPass [⟨b!"i", .integer 100, true⟩, ⟨b!"j", .integer 100, true⟩]
    (inForce 0 [.measure ⟨b!"i", .integer 101, true⟩, .tolerance (1 / 10), .measure ⟨b!"j", .integer 101, true⟩]) = 1 := by
  simp only [inForce, unlikeAt]
  rw [if_neg (by rintro ⟨-, h⟩; simp at h), if_pos ⟨rfl, by
    simp only
    rw [if_pos (by norm_num)]
    left
    norm_num [abs_of_pos, abs_of_neg]⟩]

end Verif.Whole
