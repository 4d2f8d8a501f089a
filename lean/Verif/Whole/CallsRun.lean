import Verif.Whole.Props
import Verif.Pipe.RunSpec
import Verif.Itk.DataDirProps

/-!
# Runs, with any options, of tests whose measurements are known when they start
-/

set_option linter.unusedSimpArgs false

namespace Verif.Whole
open Verif.Measurement Verif.Measurement.Spec Verif.Regression Verif.Regression.Spec Verif.Decimal Verif.Decimal.Spec Verif.Xml Verif.Xml.Spec Spec
open Verif.Path (isFile isReadable isWritable isDirectory searchPathList)
open Verif.Itk (lookedUp_search C107_baseline_file)
open Verif.Itk.Spec (LookedUp)
open Verif.Pipe.Spec (expectation)

/-- A test that makes these calls and returns `v` if it is run with these arguments by an object that expects `e`, comparing or recording. -/
def Makes (env : Env) (test : List Str → Prog) (args : List Str) (e : Int) (comparing : Bool) (v : Int) (cs : List Call) : Prop :=
  ∀ s : St, s.obj.expected = e → s.compareMode = comparing → runProg env (test args) s = runProg env (straight v cs) s ∧ observed env (test args) s = observed env (straight v cs) s

/-- Recording, for any test of which it is known what it does in such a run, by an object with a search path: the value of `Main` and the document that is left. -/
theorem record_general_path (sp : List Str) (env : Env) (test : List Str → Prog) (cs : List Call) (prog : Str) (ps : List (Str × Str)) (args : List Str) (fuel : Nat) (w : World) (f : Str) (v : Int)
    (hopt : ∀ p ∈ ps, IsOption p.1) (href : ∀ p ∈ ps, ¬ Refused w.fs p) (hstop : Stops args) (hfuel : ps.length < fuel)
    (hI : lastValue b!"-I" ps = none) (hO : lastValue b!"-O" ps = some f) (hf : f ≠ []) (hcreate : w.creatable (cstr f) = true)
    (hnew : w.fs.stat (cstr f) = none ∨ (w.fs.canRead (cstr f) = true ∧ w.fs.canWrite (cstr f) = true))
    (hkeep : Keeps (some f) (test (prog :: args))) (hv : ∀ s : St, s.obj.is = none → s.obj.inFileName = [] → s.obj.expected = expectation ps →
      (observed env (test (prog :: args)) s).map (·.call) = cs ∧ (runProg env (test (prog :: args)) s).2 = .ok v ∧ (runProg env (test (prog :: args)) s).1.world.fs = s.world.fs ∧
      (runProg env (test (prog :: args)) s).1.obj.is = none ∧ (runProg env (test (prog :: args)) s).1.obj.inFileName = [] ∧ (runProg env (test (prog :: args)) s).1.obj.expected = s.obj.expected) :
    (main env test fuel (prog :: (flat ps ++ args)) ⟨{ searchPath := sp }, w⟩).2 = .ok (if v = expectation ps then 0 else v) ∧
    (main env test fuel (prog :: (flat ps ++ args)) ⟨{ searchPath := sp }, w⟩).1.world.openRead f =
      some (header w ++ (cs.map fun c => line (recordedMeas c)).flatten ++ footer) := by
  have hnw : (isFile w.fs f && !isWritable w.fs f) = false := by
    rcases hnew with h | ⟨_, h⟩
    · simp [isFile, h]
    · by_cases hd : w.fs.stat (cstr f) = some .regular <;> simp [isWritable, isDirectory, isFile, h, hd]
  have hparse := C35_options_removed w.fs fuel { searchPath := sp, unmatched := 0 + 1 } prog ps args hopt href hstop hfuel
  rw [hI, hO] at hparse
  simp only [hnw, Bool.false_eq_true, if_false] at hparse
  obtain ⟨o, ho⟩ : ∃ o, o = (parseArguments w.fs fuel { searchPath := sp, unmatched := 0 + 1 } (prog :: (flat ps ++ args))).1 := ⟨_, rfl⟩
  have hp : parseArguments w.fs fuel { searchPath := sp, unmatched := 0 + 1 } (prog :: (flat ps ++ args)) = (o, .ok (prog :: args)) := by rw [ho, hparse]
  rw [hparse] at ho
  simp only at ho
  have ho1 : o.is = none := by rw [ho]
  have ho2 : o.inFileName = [] := by rw [ho]
  have ho3 : o.outFileName = f := by rw [ho]
  have ho4 : o.expected = expectation ps := by rw [ho]; rfl
  clear hparse ho
  obtain ⟨s1, hbegin, hdoc, _⟩ := C41_recorded_document env test fuel (prog :: (flat ps ++ args)) ⟨{ searchPath := sp }, w⟩ o (prog :: args) hp ho1 ho2 (by rw [ho3]; exact hf) (by rw [ho3]; exact hcreate) (by rw [ho3]; exact hkeep)
  have hs1 : s1.obj.is = none ∧ s1.obj.inFileName = [] ∧ s1.obj.os = some f ∧ s1.obj.expected = expectation ps ∧
      s1.world.fs.stat (cstr f) = some .regular ∧ s1.world.fs.canRead (cstr f) = true := by
    obtain ⟨w', hwr, hb, _⟩ := begin_record env ⟨o, w⟩ ho1 ho2 (by rw [ho3]; exact hf) (by rw [ho3]; exact hcreate)
    rw [hb] at hbegin
    cases hbegin
    rw [emit_obj]
    simp only [ho3] at hwr
    simp only [World.openWrite, if_pos hcreate, Option.some.injEq] at hwr
    subst hwr
    simp only [St.emit, if_true, and_true, true_and, ho1, ho2, ho3, ho4]
    rcases hnew with h | h
    · simp [h]
    · simp [h.1]
  obtain ⟨q1, q2, q3, q5, q6, q7⟩ := hs1
  obtain ⟨a1, a2, a3, b1, b2, b3⟩ := hv s1 q1 q2 q5
  have hbytes := hdoc v a2
  rcases hr : runProg env (test (prog :: args)) s1 with ⟨s2, r⟩
  rw [hr] at a2 a3 b1 b2 b3
  simp only at a2 a3 b1 b2 b3
  subst a2
  have hval := C38_record_value env test fuel (prog :: (flat ps ++ args)) ⟨{ searchPath := sp }, w⟩ o (prog :: args) s1 s2 v hp hbegin hr b2
  refine ⟨by rw [hval, b3, q5], ?_⟩
  have hfs : (main env test fuel (prog :: (flat ps ++ args)) ⟨{ searchPath := sp }, w⟩).1.world.fs = s1.world.fs := by
    have hrec : s2.compareMode = false := recording s2 b1 b2
    simp only [main, tryBlock, hp, hbegin, hr, endMeasurement, hrec, Bool.false_eq_true, if_false]
    rw [← a3, St.emit]
    split <;> rfl
  rw [World.openRead, if_pos (by rw [hfs]; exact ⟨q6, q7⟩)]
  rw [ho3] at hbytes
  rw [hbytes]
  have hl : (observed env (test (prog :: args)) s1).flatMap (fun x => line (recordedMeas x.call)) =
      (cs.map fun c => line (recordedMeas c)).flatten := by
    conv_rhs => rw [← a1]
    rw [List.map_map, List.flatMap_def]
    rfl
  rw [hl]

/-- Recording, for any test of which it is known what it does in such a run: the value of `Main` and the document that is left. -/
theorem record_general (env : Env) (test : List Str → Prog) (cs : List Call) (prog : Str) (ps : List (Str × Str)) (args : List Str) (fuel : Nat) (w : World) (f : Str) (v : Int)
    (hopt : ∀ p ∈ ps, IsOption p.1) (href : ∀ p ∈ ps, ¬ Refused w.fs p) (hstop : Stops args) (hfuel : ps.length < fuel)
    (hI : lastValue b!"-I" ps = none) (hO : lastValue b!"-O" ps = some f) (hf : f ≠ []) (hcreate : w.creatable (cstr f) = true)
    (hnew : w.fs.stat (cstr f) = none ∨ (w.fs.canRead (cstr f) = true ∧ w.fs.canWrite (cstr f) = true))
    (hkeep : Keeps (some f) (test (prog :: args))) (hv : ∀ s : St, s.obj.is = none → s.obj.inFileName = [] → s.obj.expected = expectation ps →
      (observed env (test (prog :: args)) s).map (·.call) = cs ∧ (runProg env (test (prog :: args)) s).2 = .ok v ∧ (runProg env (test (prog :: args)) s).1.world.fs = s.world.fs ∧
      (runProg env (test (prog :: args)) s).1.obj.is = none ∧ (runProg env (test (prog :: args)) s).1.obj.inFileName = [] ∧ (runProg env (test (prog :: args)) s).1.obj.expected = s.obj.expected) :
    (main env test fuel (prog :: (flat ps ++ args)) ⟨{}, w⟩).2 = .ok (if v = expectation ps then 0 else v) ∧
    (main env test fuel (prog :: (flat ps ++ args)) ⟨{}, w⟩).1.world.openRead f =
      some (header w ++ (cs.map fun c => line (recordedMeas c)).flatten ++ footer) :=
  record_general_path [] env test cs prog ps args fuel w f v hopt href hstop hfuel hI hO hf hcreate hnew hkeep hv

/-- Recording: the value of `Main` and the document that is left. -/
theorem record_calls (env : Env) (test : List Str → Prog) (cs : List Call) (prog : Str) (ps : List (Str × Str)) (args : List Str) (fuel : Nat) (w : World) (f : Str) (v : Int)
    (hopt : ∀ p ∈ ps, IsOption p.1) (href : ∀ p ∈ ps, ¬ Refused w.fs p) (hstop : Stops args) (hfuel : ps.length < fuel)
    (hI : lastValue b!"-I" ps = none) (hO : lastValue b!"-O" ps = some f) (hf : f ≠ []) (hcreate : w.creatable (cstr f) = true)
    (hnew : w.fs.stat (cstr f) = none ∨ (w.fs.canRead (cstr f) = true ∧ w.fs.canWrite (cstr f) = true))
    (hkeep : Keeps (some f) (test (prog :: args))) (hv : Makes env test (prog :: args) (expectation ps) false v cs) :
    (main env test fuel (prog :: (flat ps ++ args)) ⟨{}, w⟩).2 = .ok (if v = expectation ps then 0 else v) ∧
    (main env test fuel (prog :: (flat ps ++ args)) ⟨{}, w⟩).1.world.openRead f =
      some (header w ++ (cs.map fun c => line (recordedMeas c)).flatten ++ footer) := by
  refine record_general env test cs prog ps args fuel w f v hopt href hstop hfuel hI hO hf hcreate hnew hkeep fun s h1 h2 h3 => ?_
  obtain ⟨t1, t2⟩ := hv s h3 (recording s h1 h2)
  obtain ⟨a1, a2, a3, a4, -⟩ := observed_straight_record env v cs s h1 h2
  rw [t1, t2]
  exact ⟨a1, a2, a3, by rw [a4]; exact h1, by rw [a4]; exact h2, by rw [a4]⟩

/-- Comparing, for any test of which it is known what it does in such a run, and a baseline without encoded elements, by an object with a search path. -/
theorem compare_general_path (tol : ℚ) (sp : List Str) (env : Env) (bytes : Str) (ms : List Meas) (hread' : env.readXML bytes = .ok ms)
    (hms : ∀ b ∈ ms, Plainly b) (test : List Str → Prog) (cs : List Call)
    (prog' : Str) (ps' : List (Str × Str)) (args' : List Str) (fuel' : Nat) (w2 : World) (name file : Str) (v' : Int)
    (hopt' : ∀ p ∈ ps', IsOption p.1) (href' : ∀ p ∈ ps', ¬ Refused w2.fs p) (hstop' : Stops args') (hfuel' : ps'.length < fuel')
    (hI' : lastValue b!"-I" ps' = some name) (hn : name ≠ []) (hO' : lastValue b!"-O" ps' = none)
    (hfile : LookedUp w2.fs name ((values b!"-P" ps').reverse ++ sp) file) (hdoc : w2.openRead file = some bytes)
    (htext : ∀ c ∈ cs, c.meas.name ≠ []) (Q : List Obs → Prop)
    (hv' : ∀ s1 : St, s1.obj.is = some bytes → s1.obj.input = ms → s1.obj.expected = expectation ps' → s1.obj.tolerance = tol →
      s1.world = w2 → s1.obj.searchPath = (values b!"-P" ps').reverse ++ sp → s1.obj.os = none →
      ∃ s2, runProg env (test (prog' :: args')) s1 = (s2, .ok v') ∧ s2.world.fs = s1.world.fs ∧ s2.obj.expected = s1.obj.expected ∧
        (s2.obj.inFileName = s1.obj.inFileName ∧ s2.obj.searchPath = s1.obj.searchPath) ∧ (observed env (test (prog' :: args')) s1).map (·.call) = cs ∧ Q (observed env (test (prog' :: args')) s1)) :
    ∃ os : List Obs, os.map (·.call) = cs ∧ Q os ∧
      (main env test fuel' (prog' :: (flat ps' ++ args')) ⟨{ tolerance := tol, searchPath := sp }, w2⟩).2 = .ok (if v' ≠ expectation ps' then v' else failures env ms os) := by
  obtain ⟨-, h⟩ := C107_baseline_file env test fuel' ⟨{ tolerance := tol, searchPath := sp }, w2⟩ prog' ps' args' hopt' href' hstop' hfuel' name file hI' hn hO' rfl hfile
  obtain ⟨s1, e1, e2, e3, e4, e5, e6, e7, e8, e9, e10, -, htry⟩ := h bytes _ hdoc hread'
  have htol : s1.obj.tolerance = tol := e10
  obtain ⟨s2, g1, g2, g3, g6, g4, g5⟩ := hv' s1 e7 e3 e9 htol e1 e8 e2
  have hobs : ∀ x ∈ observed env (test (prog' :: args')) s1, x.call ∈ cs := by
    intro x hx
    rw [← g4]
    exact List.mem_map.mpr ⟨x, hx, rfl⟩
  obtain ⟨c1, c2, c3⟩ := C39_positional_count env (test (prog' :: args')) s1 bytes e7 (by
      rw [e3]
      exact hms) (fun x hx => htext _ (hobs x hx)) (by rw [g1]; rintro ⟨w, h⟩; cases h)
  rw [g1, e3, e5] at c1
  rw [g1] at c3
  simp only at c1 c3
  have hcm : s2.compareMode = true := compareMode_is c3
  refine ⟨_, g4, g5, ?_⟩
  simp only [main, htry, g1, mainValue, endMeasurement, hcm, if_true, g3]
  have hexp : s1.obj.expected = expectation ps' := e9
  rw [hexp]
  by_cases hret : v' = expectation ps'
  · simp only [hret, ne_eq, not_true_eq_false, if_false]
    rw [if_pos]
    · rw [c1]
      congr 1
      omega
    · rw [compareMode_noStream _ rfl]
      have hlook := lookedUp_search _ _ _ _ hn hfile
      have hin : s2.obj.inFileName = name := by rw [g6.1]; exact e6
      have hsp : s2.obj.searchPath = (values b!"-P" ps').reverse ++ sp := by rw [g6.2, e8]
      have hfs : s2.world.fs = w2.fs := by rw [g2, e1]
      refine ⟨by rw [hin]; exact hn, ?_⟩
      simp only [hin, hsp, hfs, hlook]
      rw [World.openRead] at hdoc
      split at hdoc
      · next hs => simp [isFile, isReadable, isDirectory, hs.1, hs.2]
      · cases hdoc
  · simp [hret]

/-- Comparing, for any test of which it is known what it does in such a run, and a baseline that reads as text and numbers. -/
theorem compare_general (tol : ℚ) (env : Env) (bytes : Str) (ms : List Meas) (hread' : env.readXML bytes = .ok ms)
    (hms : ∀ b ∈ ms, Plainly b) (test : List Str → Prog) (cs : List Call)
    (prog' : Str) (ps' : List (Str × Str)) (args' : List Str) (fuel' : Nat) (w2 : World) (name file : Str) (v' : Int)
    (hopt' : ∀ p ∈ ps', IsOption p.1) (href' : ∀ p ∈ ps', ¬ Refused w2.fs p) (hstop' : Stops args') (hfuel' : ps'.length < fuel')
    (hI' : lastValue b!"-I" ps' = some name) (hn : name ≠ []) (hO' : lastValue b!"-O" ps' = none)
    (hfile : LookedUp w2.fs name (values b!"-P" ps').reverse file) (hdoc : w2.openRead file = some bytes)
    (htext : ∀ c ∈ cs, c.meas.name ≠ []) (Q : List Obs → Prop)
    (hv' : ∀ s1 : St, s1.obj.is = some bytes → s1.obj.input = ms → s1.obj.expected = expectation ps' → s1.obj.tolerance = tol →
      ∃ s2, runProg env (test (prog' :: args')) s1 = (s2, .ok v') ∧ s2.world.fs = s1.world.fs ∧ s2.obj.expected = s1.obj.expected ∧
        (s2.obj.inFileName = s1.obj.inFileName ∧ s2.obj.searchPath = s1.obj.searchPath) ∧ (observed env (test (prog' :: args')) s1).map (·.call) = cs ∧ Q (observed env (test (prog' :: args')) s1)) :
    ∃ os : List Obs, os.map (·.call) = cs ∧ Q os ∧
      (main env test fuel' (prog' :: (flat ps' ++ args')) ⟨{ tolerance := tol }, w2⟩).2 = .ok (if v' ≠ expectation ps' then v' else failures env ms os) := by
  exact compare_general_path tol [] env bytes ms hread' hms test cs prog' ps' args' fuel' w2 name file v' hopt' href' hstop' hfuel' hI' hn hO' (by simpa using hfile) hdoc htext Q
    (fun s1 h1 h2 h3 h4 _ _ _ => hv' s1 h1 h2 h3 h4)

/-- Comparing: the value of `Main`, for a baseline that reads as text and numbers. -/
theorem compare_calls (tol : ℚ) (env : Env) (bytes : Str) (ms : List Meas) (hread' : env.readXML bytes = .ok ms)
    (hms : ∀ b ∈ ms, Plainly b ∧ ∃ d, b = .data d) (test : List Str → Prog) (cs : List Call)
    (prog' : Str) (ps' : List (Str × Str)) (args' : List Str) (fuel' : Nat) (w2 : World) (name file : Str) (v' : Int)
    (hopt' : ∀ p ∈ ps', IsOption p.1) (href' : ∀ p ∈ ps', ¬ Refused w2.fs p) (hstop' : Stops args') (hfuel' : ps'.length < fuel')
    (hI' : lastValue b!"-I" ps' = some name) (hn : name ≠ []) (hO' : lastValue b!"-O" ps' = none)
    (hv' : Makes env test (prog' :: args') (expectation ps') true v' cs)
    (hfile : LookedUp w2.fs name (values b!"-P" ps').reverse file) (hdoc : w2.openRead file = some bytes)
    (htext : ∀ c ∈ cs, (∃ d, c.meas = .data d) ∧ c.meas.name ≠ []) (hsafe : ∀ b ∈ ms, ∀ c ∈ cs, Comparable env tol b c)
    (hdiff : ∀ b ∈ ms, ∀ content name, .textPlain content name ∈ cs → b.name = name → b.type = b!"text/plain" → ∃ t, env.diff b.content content = .ok t) :
    ∃ os : List Obs, os.map (·.call) = cs ∧ (∀ o ∈ os, o.tolerance = tol) ∧
      (main env test fuel' (prog' :: (flat ps' ++ args')) ⟨{ tolerance := tol }, w2⟩).2 = .ok (if v' ≠ expectation ps' then v' else failures env ms os) := by
  refine compare_general tol env bytes ms hread' (fun b hb => (hms b hb).1) test cs prog' ps' args' fuel' w2 name file v' hopt' href' hstop' hfuel' hI' hn hO' hfile hdoc
    (fun c hc => (htext c hc).2) (fun os => ∀ o ∈ os, o.tolerance = tol) fun s1 e7 e3 e9 htol => ?_
  obtain ⟨t1, t2⟩ := hv' s1 e9 (compareMode_is e7)
  obtain ⟨s2, g1, g2, g3, g6, g4, g5⟩ := data_run env v' cs s1 bytes e7 (by rw [e3]; exact hms) htext (by rw [e3, htol]; exact hsafe) (by rw [e3]; exact hdiff)
  rw [t1, t2]
  exact ⟨s2, g1, g2, g3, g6, g4, by rw [← htol]; exact g5⟩

end Verif.Whole
