import Verif.Whole.Files

/-!
# Property C131: documents without measurements, and the project's own tests of the output
-/

set_option linter.unusedSimpArgs false

namespace Verif.Whole
open Verif.Measurement Verif.Measurement.Spec Verif.Regression Verif.Regression.Spec Verif.Decimal Verif.Decimal.Spec Verif.Xml Verif.Xml.Spec Spec RepoTests
open Verif.Itk.Spec (LookedUp)
open Verif.Pipe.Spec (expectation)

/-- A test that makes calls chosen by its arguments and by whether it compares, and returns 0. -/
def chosen (cs : List Str → Bool → List Call) (argv : List Str) : Prog := .ask fun s => calls (cs argv s.compareMode)

/-- Without measurements to compare with, every call ends normally. -/
theorem empty_run (env : Env) : ∀ (cs : List Call) (s : St) (bytes : Str), s.obj.is = some bytes → s.obj.input = [] →
    ∃ s', runProg env (calls cs) s = (s', .ok 0) ∧ s'.world.fs = s.world.fs ∧ s'.obj.expected = s.obj.expected ∧
      (s'.obj.inFileName = s.obj.inFileName ∧ s'.obj.searchPath = s.obj.searchPath) ∧ (observed env (calls cs) s).map (·.call) = cs := by
  intro cs
  induction cs with
  | nil => intro s _ _ _; exact ⟨s, rfl, rfl, rfl, ⟨rfl, rfl⟩, rfl⟩
  | cons c cs ih =>
    intro s bytes his hi
    have e : calls (c :: cs) = .call c fun _ => calls cs := rfl
    obtain ⟨t, ht⟩ := print_ok (c.meas.setName (b!"Unmatched " ++ c.meas.name))
    obtain ⟨s1, hs1⟩ : ∃ s1 : St, s1 = { s with obj := { s.obj with unmatched := s.obj.unmatched + 1 } } := ⟨_, rfl⟩
    have hc : runCall env s c = (s1.emit (t ++ b!"\n"), .ok 1) := by
      rw [runCall, compareMode_is his, if_pos rfl, compareMeasurement, hi]
      simp only [unmatchedMeasurement, ht, Res.andThen, hs1]
    have ho := emit_obj s1 (t ++ b!"\n")
    obtain ⟨s', g1, g2, g3, g4, g5⟩ := ih (s1.emit (t ++ b!"\n")) bytes (by rw [ho, hs1]; exact his) (by rw [ho, hs1]; exact hi)
    rw [e, runProg, observed, hc]
    refine ⟨s', g1, by rw [g2, emit_fs, hs1], by rw [g3, ho, hs1], by rw [g4.1, g4.2, ho, hs1]; exact ⟨rfl, rfl⟩, ?_⟩
    simp only [List.map_cons, g5]

theorem failures_none (env : Env) : ∀ os : List Obs, failures env [] os = os.length
  | [] => rfl
  | _ :: os => by rw [failures, failures_none env os, List.length_cons, Nat.add_comm]

/-- **C131.** A document recorded by a test that measures nothing (tfRegressionTestTest1), with any options and arguments, makes every measurement of any other test fail and nothing else: compared with it, with any
options and arguments, a test returns the number of its measurements, of whatever kind, unless anything but 0 is expected. -/
theorem C131_nothing_recorded (X : Expat) (hX : Conforms X) (mem : (Int → Nat) × (Int → Nat)) (steps : Nat) (tol : ℚ) (sp0 sp : List Str) (test : List Str → Bool → List Call)
    (prog : Str) (ps : List (Str × Str)) (args : List Str) (fuel : Nat) (w : World) (hw : Comment (commentText w)) (f : Str)
    (hopt : ∀ p ∈ ps, IsOption p.1) (href : ∀ p ∈ ps, ¬ Refused w.fs p) (hstop : Stops args) (hfuel : ps.length < fuel)
    (hI : lastValue b!"-I" ps = none) (hO : lastValue b!"-O" ps = some f) (hf : f ≠ []) (hcreate : w.creatable (cstr f) = true)
    (hnew : w.fs.stat (cstr f) = none ∨ (w.fs.canRead (cstr f) = true ∧ w.fs.canWrite (cstr f) = true))
    (w1 : World) (hw1 : (main (whole X mem steps) test1 fuel (prog :: (flat ps ++ args)) ⟨{ searchPath := sp0 }, w⟩).1.world = w1)
    (prog' : Str) (ps' : List (Str × Str)) (args' : List Str) (fuel' : Nat) (w2 : World) (name file : Str)
    (hopt' : ∀ p ∈ ps', IsOption p.1) (href' : ∀ p ∈ ps', ¬ Refused w2.fs p) (hstop' : Stops args') (hfuel' : ps'.length < fuel')
    (hI' : lastValue b!"-I" ps' = some name) (hn : name ≠ []) (hO' : lastValue b!"-O" ps' = none)
    (hfile : LookedUp w2.fs name ((values b!"-P" ps').reverse ++ sp) file) (hdoc : w2.openRead file = w1.openRead f)
    (hy : ∀ c ∈ test (prog' :: args') true, c.meas.name ≠ []) :
    (main (whole X mem steps) test1 fuel (prog :: (flat ps ++ args)) ⟨{ searchPath := sp0 }, w⟩).2 = .ok 0 ∧
    (main (whole X mem steps) (chosen test) fuel' (prog' :: (flat ps' ++ args')) ⟨{ tolerance := tol, searchPath := sp }, w2⟩).2 =
      .ok (if expectation ps' ≠ 0 then 0 else (test (prog' :: args') true).length) := by
  obtain ⟨ys, hys⟩ : ∃ ys, ys = test (prog' :: args') true := ⟨_, rfl⟩
  rw [← hys] at hy ⊢
  obtain ⟨r1, r2⟩ := record_general_path sp0 (whole X mem steps) test1 [] prog ps args fuel w f 0 hopt href hstop hfuel hI hO hf hcreate hnew
    trivial (fun s h1 h2 _ => ⟨rfl, rfl, rfl, h1, h2, rfl⟩)
  refine ⟨by rw [r1]; split <;> rfl, ?_⟩
  rw [hw1] at r2
  rw [r2] at hdoc
  have hread := read_recording X hX [] w hw (by simp)
  rw [show readXML X = (whole X mem steps).readXML from rfl] at hread
  generalize header w ++ _ ++ footer = bytes at hread hdoc
  obtain ⟨os, ho1, -, ho3⟩ := compare_general_path tol sp (whole X mem steps) bytes [] hread (by simp)
    (chosen test) ys prog' ps' args' fuel' w2 name file 0 hopt' href' hstop' hfuel' hI' hn hO' hfile hdoc hy (fun _ => True)
    (by
      intro s1 h1 h2 h3 h4 h5 h6 h7
      have hm : s1.settings.compareMode = true := compareMode_is h1
      obtain ⟨s2, g1, g2, g3, g6, g4⟩ := empty_run (whole X mem steps) ys s1 bytes h1 h2
      simp only [chosen, observed, runProg, hm, ← hys]
      exact ⟨s2, g1, g2, g3, g6, g4, trivial⟩)
  rw [ho3, failures_none, ← ho1, List.length_map]
  by_cases he : expectation ps' = 0
  · rw [if_neg (by simp [he]), if_neg (by simp [he])]
  · rw [if_pos (Ne.symm he), if_pos he]

/-- **C131.** As the project expects, its two tests of the output find six and three measurements without a partner, whatever the options, the arguments and the files measured. -/
theorem C131_own_tests (X : Expat) (hX : Conforms X) (mem : (Int → Nat) × (Int → Nat)) (steps : Nat) (tol : ℚ)
    (prog : Str) (ps : List (Str × Str)) (args : List Str) (fuel : Nat) (w : World) (hw : Comment (commentText w)) (f : Str)
    (hopt : ∀ p ∈ ps, IsOption p.1) (href : ∀ p ∈ ps, ¬ Refused w.fs p) (hstop : Stops args) (hfuel : ps.length < fuel)
    (hI : lastValue b!"-I" ps = none) (hO : lastValue b!"-O" ps = some f) (hf : f ≠ []) (hcreate : w.creatable (cstr f) = true)
    (hnew : w.fs.stat (cstr f) = none ∨ (w.fs.canRead (cstr f) = true ∧ w.fs.canWrite (cstr f) = true))
    (w1 : World) (hw1 : (main (whole X mem steps) test1 fuel (prog :: (flat ps ++ args)) ⟨{}, w⟩).1.world = w1)
    (prog' : Str) (ps' : List (Str × Str)) (args' : List Str) (fuel' : Nat) (w2 : World) (name file : Str)
    (hopt' : ∀ p ∈ ps', IsOption p.1) (href' : ∀ p ∈ ps', ¬ Refused w2.fs p) (hstop' : Stops args') (hfuel' : ps'.length < fuel')
    (hI' : lastValue b!"-I" ps' = some name) (hn : name ≠ []) (hO' : lastValue b!"-O" ps' = none)
    (hfile : LookedUp w2.fs name (values b!"-P" ps').reverse file) (hdoc : w2.openRead file = w1.openRead f) :
    (main (whole X mem steps) outputTest1 fuel' (prog' :: (flat ps' ++ args')) ⟨{ tolerance := tol }, w2⟩).2 = .ok (if expectation ps' ≠ 0 then 0 else 6) ∧
    (main (whole X mem steps) outputTest2 fuel' (prog' :: (flat ps' ++ args')) ⟨{ tolerance := tol }, w2⟩).2 = .ok (if expectation ps' ≠ 0 then 0 else 3) := by
  have key : ∀ (t : List Str → Prog) (cs : List Call), (∀ a, t a = calls cs) → (∀ c ∈ cs, c.meas.name ≠ []) →
      (main (whole X mem steps) t fuel' (prog' :: (flat ps' ++ args')) ⟨{ tolerance := tol }, w2⟩).2 = .ok (if expectation ps' ≠ 0 then 0 else cs.length) := by
    intro t cs ht hc
    rw [main_same (whole X mem steps) t (chosen fun _ _ => cs) (fun a s => by rw [ht]; rfl)]
    exact (C131_nothing_recorded X hX mem steps tol [] [] (fun _ _ => cs) prog ps args fuel w hw f hopt href hstop hfuel hI hO hf hcreate hnew w1 hw1
      prog' ps' args' fuel' w2 name file hopt' href' hstop' hfuel' hI' hn hO' (by simpa using hfile) hdoc hc).2
  refine ⟨key outputTest1 values1 (fun _ => rfl) ?_, key outputTest2 _ (fun _ => rfl) ?_⟩
  · intro c hc
    simp only [values1, List.mem_cons, List.not_mem_nil, or_false] at hc
    rcases hc with rfl | rfl | rfl | rfl | rfl | rfl <;> exact List.cons_ne_nil _ _
  · intro c hc
    simp only [List.mem_cons, List.not_mem_nil, or_false] at hc
    rcases hc with rfl | rfl | rfl <;> exact List.cons_ne_nil _ _

/-- What tfRegressionTestOutputTest1.cxx:13-19 does, recording and comparing. -/
def steps1 : List Step := [.measure ⟨b!"TextString", .string b!"string text value", true⟩, .measure ⟨b!"TextPlain", .plain b!"this is\n some plain text\n", true⟩,
  .measure ⟨b!"NumericInteger", .integer 0, false⟩, .measure ⟨b!"NumericFloat", .float (9227469 / 8388608), true⟩, .measure ⟨b!"NumericDouble", .double (7505999378950827 / 2251799813685248), true⟩, .measure ⟨b!"NumericBoolean", .boolean true, false⟩]

theorem outputTest1_is (env : Env) (argv : List Str) (s : St) : runProg env (outputTest1 argv) s = runProg env (stepsTest (fun _ _ => steps1) argv) s := by
  have d1 : single.nearest (11 / 10) = 9227469 / 8388608 := by decide +kernel
  have d2 : double.nearest (30 / 9) = 7505999378950827 / 2251799813685248 := by decide +kernel
  rw [outputTest1, values1, d1, d2]
  rfl

theorem steps1_valid (tol : ℚ) (h0 : 0 ≤ tol) (h1 : tol ≤ 1) : ∀ y ∈ inForce tol steps1, y.2.Valid ∧ 0 ≤ y.1 ∧ y.1 ≤ 1 := by
  have f1 : IsFloat (9227469 / 8388608) := ⟨9227469, -23, by norm_num, by norm_num, by norm_num, by norm_num⟩
  have d1 : IsDouble (7505999378950827 / 2251799813685248) := ⟨7505999378950827, -51, by norm_num, by norm_num, by norm_num, by norm_num⟩
  simp only [steps1, inForce, List.mem_cons, List.not_mem_nil, or_false, forall_eq_or_imp, forall_eq]
  exact ⟨⟨⟨by decide, by decide, (by decide : ∀ c ∈ b!"string text value", Printable c)⟩, h0, h1⟩,
    ⟨⟨by decide, by decide, (by decide : ∀ c ∈ b!"this is\n some plain text\n", Printable c)⟩, h0, h1⟩, ⟨⟨by decide, by decide, (by norm_num : |(0 : Int)| < 2 ^ 30)⟩, h0, h1⟩,
    ⟨⟨by decide, by decide, f1⟩, h0, h1⟩, ⟨⟨by decide, by decide, d1⟩, h0, h1⟩, ⟨⟨by decide, by decide, trivial⟩, h0, h1⟩⟩

theorem steps1_alike (tol : ℚ) (htol : tol = 0 ∨ (5 / 10 ^ 6 ≤ tol ∧ tol ≤ 1)) : unlikeAt MustPass ((inForce 0 steps1).map (·.2)) (inForce tol steps1) = 0 := by
  have h : tol ≠ 0 → 0 ≤ tol - 5 / 10 ^ 6 := by
    intro h
    rcases htol with h' | h'
    · exact absurd h' h
    · linarith [h'.1]
  have h' : tol ≠ 0 → Close (tol - 5 / 10 ^ 6) (9227469 / 8388608) (9227469 / 8388608) := by
    intro hne
    left
    rw [sub_self, abs_zero]
    exact mul_nonneg (h hne) (abs_nonneg _)
  have h2 : tol ≠ 0 → Close (tol - 5 / 10 ^ 15) (7505999378950827 / 2251799813685248) (7505999378950827 / 2251799813685248) := by
    intro hne
    left
    rw [sub_self, abs_zero]
    have := h hne
    exact mul_nonneg (by linarith) (abs_nonneg _)
  simp only [steps1, inForce, List.map_cons, List.map_nil, unlikeAt]
  rw [if_pos ⟨rfl, rfl⟩, if_pos ⟨rfl, rfl⟩, if_pos ⟨rfl, by simp⟩, if_pos ⟨rfl, by
    simp only
    split
    · next h => exact h' h.2
    · trivial⟩, if_pos ⟨rfl, by
    simp only
    split
    · next h => exact h2 h.2
    · trivial⟩, if_pos ⟨rfl, rfl⟩]

/-- **C131.** The project's own test of the output of values (tfRegressionTestOutputTest1) passes when it is compared with any recording of itself, whatever the
options, the arguments and the tolerance of the comparing object (0, or at least 5 in a million). -/
theorem C131_outputTest1 (X : Expat) (hX : Conforms X) (mem : (Int → Nat) × (Int → Nat)) (steps : Nat) (hsteps : 40 ≤ steps) (tol : ℚ) (htol : tol = 0 ∨ (5 / 10 ^ 6 ≤ tol ∧ tol ≤ 1))
    (prog : Str) (ps : List (Str × Str)) (args : List Str) (fuel : Nat) (w : World) (hw : Comment (commentText w)) (f : Str)
    (hopt : ∀ p ∈ ps, IsOption p.1) (href : ∀ p ∈ ps, ¬ Refused w.fs p) (hstop : Stops args) (hfuel : ps.length < fuel)
    (hI : lastValue b!"-I" ps = none) (hO : lastValue b!"-O" ps = some f) (hf : f ≠ []) (hcreate : w.creatable (cstr f) = true)
    (hnew : w.fs.stat (cstr f) = none ∨ (w.fs.canRead (cstr f) = true ∧ w.fs.canWrite (cstr f) = true))
    (w1 : World) (hw1 : (main (whole X mem steps) outputTest1 fuel (prog :: (flat ps ++ args)) ⟨{}, w⟩).1.world = w1)
    (prog' : Str) (ps' : List (Str × Str)) (args' : List Str) (fuel' : Nat) (w2 : World) (name file : Str)
    (hopt' : ∀ p ∈ ps', IsOption p.1) (href' : ∀ p ∈ ps', ¬ Refused w2.fs p) (hstop' : Stops args') (hfuel' : ps'.length < fuel')
    (hI' : lastValue b!"-I" ps' = some name) (hn : name ≠ []) (hO' : lastValue b!"-O" ps' = none)
    (hfile : LookedUp w2.fs name (values b!"-P" ps').reverse file) (hdoc : w2.openRead file = w1.openRead f) :
    (main (whole X mem steps) outputTest1 fuel (prog :: (flat ps ++ args)) ⟨{}, w⟩).2 = .ok 0 ∧
    (main (whole X mem steps) outputTest1 fuel' (prog' :: (flat ps' ++ args')) ⟨{ tolerance := tol }, w2⟩).2 = .ok 0 := by
  simp only [main_same _ _ _ (outputTest1_is (whole X mem steps))] at hw1 ⊢
  have ht : 0 ≤ tol ∧ tol ≤ 1 := by
    rcases htol with rfl | h
    · norm_num
    · exact ⟨by linarith [h.1], h.2⟩
  have hval := steps1_valid tol ht.1 ht.2
  have hx : ∀ x ∈ (inForce 0 steps1).map (·.2), x.Valid := by
    intro x hx
    rw [inForce_items steps1 0 tol] at hx
    obtain ⟨y, hy, rfl⟩ := List.mem_map.mp hx
    exact (hval y hy).1
  obtain ⟨g1, n, g2, -, g4⟩ := C129_tolerances X hX mem steps 0 tol (fun _ _ => steps1) prog ps args fuel w hw f hopt href hstop hfuel hI hO hf hcreate hnew w1 hw1
    prog' ps' args' fuel' w2 name file hopt' href' hstop' hfuel' hI' hn hO' hfile hdoc _ _ rfl rfl hx hval (by
      have one : ∀ y ∈ (inForce tol steps1).map (·.2), ∀ a, y.value = .plain a → a = b!"this is\n some plain text\n" := by
        intro y hy a h
        simp only [steps1, inForce, List.map_cons, List.map_nil, List.mem_cons, List.not_mem_nil, or_false] at hy
        rcases hy with rfl | rfl | rfl | rfl | rfl | rfl <;> simp at h
        exact h.symm
      intro x hx y hy a b hxa hyb _
      have ha := one x (by rw [← inForce_items steps1 0 tol]; exact hx) a hxa
      have hb := one y.2 (List.mem_map.mpr ⟨y, hy, rfl⟩) b hyb
      subst ha hb
      refine ⟨by rw [Diff.Spec.Fits]; decide +kernel, by rw [Diff.topClear_iff]; decide +kernel, ?_⟩
      have : Diff.Spec.Enough 40 b!"this is\n some plain text\n" b!"this is\n some plain text\n" := by rw [Diff.Spec.Enough]; decide +kernel
      rw [Diff.Spec.Enough] at this ⊢
      omega)
  refine ⟨g1, ?_⟩
  rw [g2]
  rw [steps1_alike tol htol] at g4
  have : n = 0 := by omega
  subst this
  simp

/-- The world after tfRegressionTestTest1 was recorded. -/
def recordedTest1 : World := (main (whole reference (fun _ => 0, fun _ => 0) 40) test1 3 [b!"prog", b!"-R", b!"0", b!"-O", b!"f"] ⟨{}, plainWorld⟩).1.world

theorem recordedTest1_file : Path.isFile recordedTest1.fs b!"f" = true ∧ Path.isReadable recordedTest1.fs b!"f" = true := by
  unfold recordedTest1
  constructor <;> decide +kernel

/-- Compared with it tfRegressionTestOutputTest1 returns 6. -/
example : (main (whole reference (fun _ => 0, fun _ => 0) 40) outputTest1 3 [b!"prog", b!"-I", b!"f", b!"-R", b!"0", b!"more"] ⟨{ tolerance := 1 / 10 }, recordedTest1⟩).2 = .ok 6 :=
  (C131_own_tests reference reference_conforms (fun _ => 0, fun _ => 0) 40 (1 / 10) b!"prog" [(b!"-R", b!"0"), (b!"-O", b!"f")] [] 3 plainWorld plain_comment b!"f"
    (by simp [IsOption]) (by simp [Refused, Path.isFile]) (by simp [Stops, IsOption]) (by decide) (by decide) (by decide) (by decide) rfl (.inl rfl) recordedTest1 rfl
    b!"prog" [(b!"-I", b!"f"), (b!"-R", b!"0")] [b!"more"] 3 recordedTest1 b!"f" b!"f" (by simp [IsOption]) (by simp [Refused, recordedTest1_file]) (by simp [Stops, IsOption]) (by decide) (by decide) (by decide) (by decide)
    (.asIs) rfl).1

end Verif.Whole
