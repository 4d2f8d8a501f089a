import Verif.Whole.Mix
import Verif.Whole.LateSpec

/-!
# Property C133: what counts in the end
-/

set_option linter.unusedSimpArgs false

namespace Verif.Whole
open Verif.Measurement Verif.Measurement.Spec Verif.Regression Verif.Regression.Spec Verif.Decimal Verif.Decimal.Spec Verif.Xml Verif.Xml.Spec Spec RepoTests
open Verif.Path (isFile isReadable isWritable isDirectory searchPathList)
open Verif.Itk (lookedUp_search last_baseName baseName_last C107_baseline_file)
open Verif.Itk.Spec (LookedUp LastComponent)
open Verif.Pipe.Spec (expectation)

/-- The steps of `actsProg`, and then another program. -/
def actsThen (p : Prog) : List Act → Prog
  | [] => p
  | .tolerance t :: l => .setTolerance t (actsThen p l)
  | .measure x :: l => .call x.call fun _ => actsThen p l

/-- `SetInFileSearchPath`, `SetInFileName` and `SetExpectedReturn` as far as they are called, and the value returned; tfRegressionTest.cpp:58-122. -/
def endProg (e : Ending) : Prog :=
  let p1 := match e.expected with
    | none => Prog.ret e.value
    | some v => .setExpected v (.ret e.value)
  let p2 := match e.baseline with
    | none => p1
    | some n => .setInFileName n p1
  match e.searchPath with
    | none => p2
    | some ds => .setSearchPath ds p2

/-- A test that measures, and then changes settings. -/
def lateTest (acts : List Str → Bool → List Act) (ending : List Str → Bool → Ending) (argv : List Str) : Prog :=
  .ask fun s => actsThen (endProg (ending argv s.compareMode)) (acts argv s.compareMode)

theorem actsThen_run (env : Env) (p : Prog) : ∀ (l : List Act) (s s' : St), runProg env (actsProg l) s = (s', .ok 0) →
    runProg env (actsThen p l) s = runProg env p s' ∧ observed env (actsThen p l) s = observed env (actsProg l) s ++ observed env p s' := by
  intro l
  induction l with
  | nil => intro s s' h; cases h; exact ⟨rfl, rfl⟩
  | cons a l ih =>
    intro s s' h
    cases a with
    | tolerance t => exact ih _ _ h
    | measure x =>
      rw [actsProg, runProg] at h
      rw [actsThen, runProg, observed, actsProg, observed]
      rcases hc : runCall env s x.call with ⟨s1, f | v⟩
      · rw [hc] at h; cases h
      · rw [hc] at h
        obtain ⟨h1, h2⟩ := ih s1 s' h
        exact ⟨h1, by simp only [h2, List.cons_append]⟩

theorem endProg_run (env : Env) (e : Ending) (s : St) : observed env (endProg e) s = [] ∧
    runProg env (endProg e) s = ({ s with obj := { s.obj with searchPath := e.searchPath.getD s.obj.searchPath, inFileName := e.baseline.getD s.obj.inFileName, expected := e.expected.getD s.obj.expected } }, .ok e.value) := by
  obtain ⟨a, b, c, v⟩ := e
  cases a <;> cases b <;> cases c <;> exact ⟨rfl, rfl⟩

theorem present_iff (o : Obj) (w : World) : baselinePresent o w.fs ↔ CanBeRead w o.inFileName o.searchPath := by
  rw [baselinePresent, CanBeRead]
  have hread : ∀ q, (isFile w.fs q = true ∧ isReadable w.fs q = true) ↔ ∃ bytes, w.openRead q = some bytes := by
    intro q
    simp only [World.openRead]
    by_cases h : w.fs.stat (cstr q) = some .regular
    · simp [isFile, isReadable, isDirectory, h]
    · simp [isFile, h]
  constructor
  · rintro ⟨hn, h⟩
    obtain ⟨place, hp⟩ := lookedUp_total w.fs o.inFileName o.searchPath
    have hs := lookedUp_search _ _ _ _ hn hp
    simp only [hs] at h
    obtain ⟨bytes, hb⟩ := (hread place).mp h
    exact ⟨hn, place, bytes, hp, hb⟩
  · rintro ⟨hn, place, bytes, hp, hb⟩
    have hs := lookedUp_search _ _ _ _ hn hp
    simp only [hs]
    exact ⟨hn, (hread place).mpr ⟨bytes, hb⟩⟩

open Classical in
/-- Comparing, for a test that changes what its object expects and where it looks, after it has measured. -/
theorem compare_late (tol : ℚ) (sp : List Str) (env : Env) (bytes : Str) (ms : List Meas) (hread' : env.readXML bytes = .ok ms)
    (hms : ∀ b ∈ ms, Plainly b) (test : List Str → Prog) (cs : List Call)
    (prog' : Str) (ps' : List (Str × Str)) (args' : List Str) (fuel' : Nat) (w2 : World) (name file : Str) (v' e' : Int) (n' : Str) (d' : List Str)
    (hopt' : ∀ p ∈ ps', IsOption p.1) (href' : ∀ p ∈ ps', ¬ Refused w2.fs p) (hstop' : Stops args') (hfuel' : ps'.length < fuel')
    (hI' : lastValue b!"-I" ps' = some name) (hn : name ≠ []) (hO' : lastValue b!"-O" ps' = none)
    (hfile : LookedUp w2.fs name ((values b!"-P" ps').reverse ++ sp) file) (hdoc : w2.openRead file = some bytes)
    (htext : ∀ c ∈ cs, c.meas.name ≠ []) (Q : List Obs → Prop)
    (hv' : ∀ s1 : St, s1.obj.is = some bytes → s1.obj.input = ms → s1.obj.expected = expectation ps' → s1.obj.tolerance = tol →
      s1.world = w2 → s1.obj.searchPath = (values b!"-P" ps').reverse ++ sp → s1.obj.os = none → s1.obj.inFileName = name →
      ∃ s2, runProg env (test (prog' :: args')) s1 = (s2, .ok v') ∧ s2.world.fs = s1.world.fs ∧ s2.world.bytes = s1.world.bytes ∧ s2.obj.expected = e' ∧
        (s2.obj.inFileName = n' ∧ s2.obj.searchPath = d') ∧ (observed env (test (prog' :: args')) s1).map (·.call) = cs ∧ Q (observed env (test (prog' :: args')) s1)) :
    ∃ os : List Obs, os.map (·.call) = cs ∧ Q os ∧
      (main env test fuel' (prog' :: (flat ps' ++ args')) ⟨{ tolerance := tol, searchPath := sp }, w2⟩).2 = .ok (if v' ≠ e' then v' else if CanBeRead w2 n' d' then failures env ms os else 0) := by
  obtain ⟨-, h⟩ := C107_baseline_file env test fuel' ⟨{ tolerance := tol, searchPath := sp }, w2⟩ prog' ps' args' hopt' href' hstop' hfuel' name file hI' hn hO' rfl hfile
  obtain ⟨s1, e1, e2, e3, e4, e5, e6, e7, e8, e9, e10, -, htry⟩ := h bytes _ hdoc hread'
  have htol : s1.obj.tolerance = tol := e10
  obtain ⟨s2, g1, g2, g2', g3, g6, g4, g5⟩ := hv' s1 e7 e3 e9 htol e1 e8 e2 e6
  have hobs : ∀ x ∈ observed env (test (prog' :: args')) s1, x.call ∈ cs := by
    intro x hx
    rw [← g4]
    exact List.mem_map.mpr ⟨x, hx, rfl⟩
  obtain ⟨c1, c2, c3⟩ := C39_positional_count env (test (prog' :: args')) s1 bytes e7 (by
      rw [e3]
      exact hms) (fun x hx => htext _ (hobs x hx)) (by rw [g1]; rintro ⟨w, h⟩; cases h)
  rw [g1, e3, e5] at c1
  rw [g1] at c3
  simp only at c1 c3
  have hcm : s2.compareMode = true := compareMode_is c3
  refine ⟨_, g4, g5, ?_⟩
  simp only [main, htry, g1, mainValue, endMeasurement, hcm, if_true, g3]
  by_cases hret : v' = e'
  · simp only [hret, ne_eq, not_true_eq_false, if_false]
    obtain ⟨o, ho⟩ : ∃ o : Obj, o = { s2.obj with is := none, os := none, input := [], unmatched := s2.obj.unmatched - 1 + (s2.obj.input.length : Int) } := ⟨_, rfl⟩
    have hpr : baselinePresent o s2.world.fs ↔ CanBeRead w2 n' d' := by
      rw [present_iff o s2.world, ho]
      simp only [g6.1, g6.2]
      have hopen : ∀ q, s2.world.openRead q = w2.openRead q := by intro q; rw [World.openRead, World.openRead, g2, g2', e1]
      simp only [CanBeRead, hopen, g2, e1]
    by_cases hc : CanBeRead w2 n' d'
    · rw [if_pos hc, if_pos]
      · rw [c1]
        congr 1
        omega
      · rw [compareMode_noStream _ rfl]
        rw [← hpr, ho] at hc
        exact hc
    · rw [if_neg hc, if_neg]
      rw [compareMode_noStream _ rfl]
      rw [← hpr, ho] at hc
      exact hc
  · simp [hret]

open Classical in
/-- **C133.** A test that, when it compares, changes after its measurements what its object expects, the baseline it names or where that is searched, is compared with a recording that
the test has made without these changes.  What counts in the end
is what it has set: the value the test returns decides if it is not the one expected now; and the failures are returned only if the file looked up for the name given now, in the directories given now, can be
read.  If it cannot, the run returns 0, whatever differed. -/
theorem C133_what_counts (X : Expat) (hX : Conforms X) (mem : (Int → Nat) × (Int → Nat)) (steps : Nat) (tol tol' : ℚ) (sp0 sp : List Str) (test : List Str → Bool → List Act) (ending : List Str → Bool → Ending)
    (prog : Str) (ps : List (Str × Str)) (args : List Str) (fuel : Nat) (w : World) (hw : Comment (commentText w)) (f : Str)
    (hopt : ∀ p ∈ ps, IsOption p.1) (href : ∀ p ∈ ps, ¬ Refused w.fs p) (hstop : Stops args) (hfuel : ps.length < fuel)
    (hI : lastValue b!"-I" ps = none) (hO : lastValue b!"-O" ps = some f) (hf : f ≠ []) (hcreate : w.creatable (cstr f) = true)
    (hnew : w.fs.stat (cstr f) = none ∨ (w.fs.canRead (cstr f) = true ∧ w.fs.canWrite (cstr f) = true))
    (w1 : World) (hw1 : (main (whole X mem steps) (actsTest test) fuel (prog :: (flat ps ++ args)) ⟨{ searchPath := sp0 }, w⟩).1.world = w1)
    (prog' : Str) (ps' : List (Str × Str)) (args' : List Str) (fuel' : Nat) (w2 : World) (name file : Str)
    (hopt' : ∀ p ∈ ps', IsOption p.1) (href' : ∀ p ∈ ps', ¬ Refused w2.fs p) (hstop' : Stops args') (hfuel' : ps'.length < fuel')
    (hI' : lastValue b!"-I" ps' = some name) (hn : name ≠ []) (hO' : lastValue b!"-O" ps' = none)
    (hfile : LookedUp w2.fs name ((values b!"-P" ps').reverse ++ sp) file) (hdoc : w2.openRead file = w1.openRead f)
    (e : Ending) (hend : ending (prog' :: args') true = e)
    (xs : List Thing) (ys : List (ℚ × Thing)) (hxs : (underWay tol (test (prog :: args) false)).map (·.2) = xs) (hys : underWay tol' (test (prog' :: args') true) = ys)
    (hx : ∀ x ∈ xs, x.Valid) (hy : ∀ y ∈ ys, y.2.Valid ∧ 0 ≤ y.1 ∧ y.1 ≤ 1)
    (hplain : ∀ x t i a b, (x, t, .value i) ∈ xs.zip ys → ¬ Takes MustPass w2 ((values b!"-P" ps').reverse ++ sp) t x (.value i) → Recorded x a → i.value = .plain b → x.name = i.name → Diff.Spec.Fits a b ∧ Diff.Spec.TopClear a b ∧ Diff.Spec.Enough steps a b) :
    (main (whole X mem steps) (actsTest test) fuel (prog :: (flat ps ++ args)) ⟨{ searchPath := sp0 }, w⟩).2 = .ok 0 ∧
    ∃ n : Nat, (main (whole X mem steps) (lateTest test ending) fuel' (prog' :: (flat ps' ++ args')) ⟨{ tolerance := tol', searchPath := sp }, w2⟩).2 =
        .ok (if e.value ≠ e.expected.getD (expectation ps') then e.value else if CanBeRead w2 (e.baseline.getD name) (e.searchPath.getD ((values b!"-P" ps').reverse ++ sp)) then (n : Int) else 0) ∧
      refusals (Takes MayPass w2 ((values b!"-P" ps').reverse ++ sp)) xs ys ≤ n ∧ n ≤ refusals (Takes MustPass w2 ((values b!"-P" ps').reverse ++ sp)) xs ys := by
  have hcs : (underWay 0 (test (prog :: args) false)).map (fun p => p.2.call) = xs.map Thing.call := by
    rw [← hxs, List.map_map]
    exact underWay_calls _ _ _
  obtain ⟨r1, r2⟩ := record_general_path sp0 (whole X mem steps) (actsTest test) (xs.map Thing.call) prog ps args fuel w f 0 hopt href hstop hfuel hI hO hf hcreate hnew
    (fun _ => actsProg_keeps _ _) (by
      intro s h1 h2 _
      have hm : s.settings.compareMode = false := recording s h1 h2
      obtain ⟨a1, a2⟩ := acts_record (whole X mem steps) (test (prog :: args) false) s h1 h2
      simp only [actsTest, observed, runProg, hm]
      exact ⟨by rw [a1, hcs], a2⟩)
  refine ⟨by rw [r1]; split <;> rfl, ?_⟩
  rw [hw1] at r2
  rw [r2] at hdoc
  have hread := read_recording X hX (xs.map Thing.call) w hw (fun c hc => by
    obtain ⟨x, hx', rfl⟩ := List.mem_map.mp hc
    have hv := hx x hx'
    cases x with
    | value x =>
      refine recorded_clean x.call x.data (call_data x) ?_ ?_
      · rw [call_data]
        show ∀ c ∈ x.data.name, AttrChar c
        rw [data_name]; exact hv.2.1
      · rw [call_data]; exact data_printable x hv
    | file x =>
      show Clean (recordedMeas x.call)
      rw [file_recorded]
      refine ⟨hv.2.1, ?_, (hv.2.2 _ (baseName_last _)).2, rfl⟩
      show ∀ c ∈ x.kind.type, AttrChar c
      generalize x.kind = k
      cases k <;> decide)
  rw [show readXML X = (whole X mem steps).readXML from rfl] at hread
  generalize header w ++ _ ++ footer = bytes at hread hdoc
  have hnames : ∀ y ∈ ys, y.2.name ≠ [] := by
    intro y hy'
    have hv := (hy y hy').1
    rcases y with ⟨t, _ | _⟩ <;> exact hv.1
  obtain ⟨os, -, ho2, ho3⟩ := compare_late tol' sp (whole X mem steps) bytes ((xs.map Thing.call).map recordedMeas) hread (by
      intro b hb
      obtain ⟨c, hc, rfl⟩ := List.mem_map.mp hb
      exact recorded_plainly _)
    (lateTest test ending) (ys.map fun p => p.2.call) prog' ps' args' fuel' w2 name file e.value (e.expected.getD (expectation ps')) (e.baseline.getD name) (e.searchPath.getD ((values b!"-P" ps').reverse ++ sp)) hopt' href' hstop' hfuel' hI' hn hO' hfile hdoc
    (by
      intro c hc
      obtain ⟨y, hy', rfl⟩ := List.mem_map.mp hc
      rw [thing_name]
      exact hnames y hy')
    (fun os => os.map (fun o => (o.tolerance, o.call)) = ys.map (fun p => (p.1, p.2.call)) ∧
      ∀ o ∈ os, o.path = (values b!"-P" ps').reverse ++ sp ∧ o.world.fs = w2.fs ∧ o.world.bytes = w2.bytes)
    (by
      intro s1 h1 h2 h3 h4 h5 h6 h7 h8
      have hm : s1.settings.compareMode = true := compareMode_is h1
      have hys' : underWay s1.obj.tolerance (test (prog' :: args') true) = ys := by rw [h4, hys]
      obtain ⟨s2, g1, g2, g3, g6, g4, g5⟩ := acts_run (whole X mem steps) rfl rfl w2 ((values b!"-P" ps').reverse ++ sp) (test (prog' :: args') true) xs s1 bytes h1 h7 (by rw [h5]) (by rw [h5]) h6
        (by rw [h2, List.map_map]; rfl) hx (by rw [hys']; exact hy)
        (by
          rw [hys']
          rintro ⟨x, t, y⟩ hq
          have hx' := (List.of_mem_zip hq).1
          have hp := (List.of_mem_zip hq).2
          have hv := hx x hx'
          obtain ⟨v1, v2, v3⟩ := hy _ hp
          cases y with
          | file y => trivial
          | value y =>
            refine ⟨?_, ?_⟩
            · rintro j rfl e d k he hd hke hkd _
              rw [call_data] at hd
              cases he
              cases hd
              exact comparable_items t v2 v3 j y hv v1 k hke hkd
            · intro hno hname a b ha hb
              obtain ⟨p1, p2, p3⟩ := hplain x t y a b hq hno ha hb hname
              obtain ⟨u, hu⟩ := Diff.C15_total a b p1 p2
              exact ⟨u, hu mem steps p3⟩)
      rw [hys'] at g4
      obtain ⟨q1, q2⟩ := endProg_run (whole X mem steps) e s2
      obtain ⟨p1, p2⟩ := actsThen_run (whole X mem steps) (endProg e) _ s1 s2 g1
      simp only [lateTest, observed, runProg, hm, hend]
      rw [p1, p2, q1, q2, List.append_nil]
      refine ⟨_, rfl, g2.1, g2.2, by rw [g3, h3], ⟨by rw [g6.1, h8], by rw [g6.2, h6]⟩, ?_, g4, g5⟩
      have := congrArg (List.map Prod.snd) g4
      rw [List.map_map, List.map_map] at this
      exact this)
  have := failures_things (whole X mem steps) rfl rfl w2 _ ys xs os hx hy ho2.1 ho2.2
  exact ⟨_, ho3, this⟩

end Verif.Whole
