import Verif.Regression.SettingsProps

/-!
# Property C94: what the `Get` functions tell a test
-/

set_option linter.unusedSimpArgs false

namespace Verif.Regression
open Spec Verif.Path Verif.Measurement Verif.Measurement.Spec Verif.Xml Verif.Xml.Spec

/-! ## Specification -/

/-- What a test can do between two looks at the settings: measure, change the surroundings, and call the `Set` functions. -/
inductive Spec.Step where
  | call (c : Call)
  | act (f : World → World)
  | setTolerance (t : ℚ)
  | setExpected (v : Int)
  | setImageTolerance (t : ImgTol)
  | setSearchPath (ps : List Str)
  | prependSearchPath (p : Str)
  | setInFileName (n : Str)
  | setOutFileName (n : Str)

/-- A test that does these things, whatever the measurements give, and goes on with `k`. -/
def Spec.steps : List Spec.Step → Prog → Prog
  | [], k => k
  | .call c :: l, k => .call c fun _ => Spec.steps l k
  | .act f :: l, k => .act f (Spec.steps l k)
  | .setTolerance t :: l, k => .setTolerance t (Spec.steps l k)
  | .setExpected v :: l, k => .setExpected v (Spec.steps l k)
  | .setImageTolerance t :: l, k => .setImageTolerance t (Spec.steps l k)
  | .setSearchPath ps :: l, k => .setSearchPath ps (Spec.steps l k)
  | .prependSearchPath p :: l, k => .prependSearchPath p (Spec.steps l k)
  | .setInFileName n :: l, k => .setInFileName n (Spec.steps l k)
  | .setOutFileName n :: l, k => .setOutFileName n (Spec.steps l k)

/-- The arguments of the calls of one `Set` function, the last one first. -/
def Spec.lastOf {α : Type} (f : Spec.Step → Option α) (l : List Spec.Step) (before : α) : α := ((l.filterMap f).getLast?).getD before

/-- The search path after the steps: what was put in front since it was last set. -/
def Spec.pathAfter (before : List Str) : List Spec.Step → List Str
  | [] => before
  | .setSearchPath ps :: l => Spec.pathAfter ps l
  | .prependSearchPath p :: l => Spec.pathAfter (p :: before) l
  | _ :: l => Spec.pathAfter before l

/-! ## Proofs -/

theorem lastOf_cons {α : Type} (f : Step → Option α) (x : Step) (l : List Step) (b : α) : lastOf f (x :: l) b = lastOf f l ((f x).getD b) := by
  simp only [lastOf, List.filterMap_cons]
  cases f x with
  | none => rfl
  | some a => cases h : List.filterMap f l with
    | nil => simp
    | cons y m => simp [List.getLast?_cons]

/-- **C94.** A test that measures, changes settings and then asks is told, by every `Get` function, the argument of the last call of the corresponding `Set`
function, or what was in force before if there was none, whatever was measured in between; the search path is the one last set with the directories put
in front since. -/
theorem C94_told_what_was_set (env : Env) (k : Settings → Prog) : ∀ (l : List Step) (s s' : St), runProg env (steps l (.ret 0)) s = (s', .ok 0) →
    runProg env (steps l (.ask k)) s = runProg env (k {
      compareMode := s'.compareMode
      expected := lastOf (fun | .setExpected v => some v | _ => none) l s.obj.expected
      tolerance := lastOf (fun | .setTolerance t => some t | _ => none) l s.obj.tolerance
      inFileName := lastOf (fun | .setInFileName n => some n | _ => none) l s.obj.inFileName
      outFileName := lastOf (fun | .setOutFileName n => some n | _ => none) l s.obj.outFileName
      searchPath := pathAfter s.obj.searchPath l }) s' := by
  intro l
  induction l with
  | nil =>
    intro s s' h
    cases h
    rfl
  | cons x l ih =>
    intro s s' h
    cases x with
    | call c =>
      obtain ⟨i, u, hf⟩ := runCall_frame env s c
      simp only [steps, runProg] at h ⊢
      rcases hc : runCall env s c with ⟨s1, f | r⟩
      · rw [hc] at h; simp at h
      · rw [hc] at hf h
        simp only at hf h ⊢
        rw [ih s1 s' h, hf]
        simp only [lastOf_cons, Option.getD_none, pathAfter]
    | _ =>
      simp only [steps, runProg] at h ⊢
      rw [ih _ s' h]
      simp only [lastOf_cons, Option.getD_none, Option.getD_some, pathAfter]

/-- **C94.** A test that asks at its start is told what the command line says: the expected value of the last "-R", the files of the last "-I" and "-O", the
directories of all "-P", the last one first, before the search path of the object, the tolerance of the object, and that the run compares exactly when it has an
input file. -/
theorem C94_told_what_the_command_line_says (env : Env) (k : List Str → Settings → Prog) (fuel : Nat) (s : St) (his : s.obj.is = none) (prog : Str)
    (ps : List (Str × Str)) (rest : List Str) (hopt : ∀ p ∈ ps, IsOption p.1) (href : ∀ p ∈ ps, ¬ Refused s.world.fs p) (hstop : Stops rest)
    (hfuel : ps.length < fuel) :
    main env (fun args => .ask (k args)) fuel (prog :: (flat ps ++ rest)) s =
    main env (fun args => k args {
      compareMode := decide ((match lastValue b!"-I" ps with | none => s.obj.inFileName | some v => v) ≠ [])
      expected := match lastValue b!"-R" ps with | none => s.obj.expected | some v => strtolInt v
      tolerance := s.obj.tolerance
      inFileName := match lastValue b!"-I" ps with | none => s.obj.inFileName | some v => v
      outFileName := match lastValue b!"-O" ps with
        | none => s.obj.outFileName
        | some v => if isFile s.world.fs v && !isWritable s.world.fs v then s.obj.outFileName else v
      searchPath := (values b!"-P" ps).reverse ++ s.obj.searchPath }) fuel (prog :: (flat ps ++ rest)) s := by
  have hp := C35_options_removed s.world.fs fuel { s.obj with unmatched := s.obj.unmatched + 1 } prog ps rest hopt href hstop hfuel
  simp only [main, tryBlock]
  simp only at hp
  rw [hp]
  dsimp only
  rcases hb : beginMeasurement env ⟨{ s.obj with
          unmatched := s.obj.unmatched + 1
          expected := (match lastValue b!"-R" ps with | none => s.obj.expected | some v => strtolInt v)
          searchPath := (values b!"-P" ps).reverse ++ s.obj.searchPath
          inFileName := (match lastValue b!"-I" ps with | none => s.obj.inFileName | some v => v)
          outFileName := (match lastValue b!"-O" ps with
            | none => s.obj.outFileName
            | some v => if isFile s.world.fs v && !isWritable s.world.fs v then s.obj.outFileName else v) }, s.world⟩ with ⟨s1, f | u⟩
  · rfl
  · obtain ⟨os, is, input, hf⟩ := begin_frame env ⟨{ s.obj with
          unmatched := s.obj.unmatched + 1
          expected := (match lastValue b!"-R" ps with | none => s.obj.expected | some v => strtolInt v)
          searchPath := (values b!"-P" ps).reverse ++ s.obj.searchPath
          inFileName := (match lastValue b!"-I" ps with | none => s.obj.inFileName | some v => v)
          outFileName := (match lastValue b!"-O" ps with
            | none => s.obj.outFileName
            | some v => if isFile s.world.fs v && !isWritable s.world.fs v then s.obj.outFileName else v) }, s.world⟩
    rw [hb] at hf
    obtain ⟨-, -, -, -, -, h1, h2⟩ := begin_ok env _ s1 hb
    dsimp only at hf h1 h2 ⊢
    have hcm : s1.compareMode = decide ((match lastValue b!"-I" ps with | none => s.obj.inFileName | some v => v) ≠ []) := by
      generalize hn : (match lastValue b!"-I" ps with | none => s.obj.inFileName | some v => v) = n at hf h1 h2
      have hin : s1.obj.inFileName = n := by rw [hf]
      by_cases h : n = []
      · rw [St.compareMode, h2 h his, hin, if_pos h]; simp [h]
      · obtain ⟨b, hb1, -⟩ := h1 h
        rw [compareMode_is hb1]; simp [h]
    simp only [runProg]
    rw [show s1.settings = { s1.settings with compareMode := s1.compareMode } from rfl, hcm]
    simp only [St.settings, hf]

/-- The hypotheses are met: a test that is told what it expects and where it writes. -/
example (k : List Str → Settings → Prog) :
    main (smallEnv []) (fun args => .ask (k args)) 9 [b!"t", b!"-R", b!"3", b!"-O", b!"o", b!"-R", b!"7", b!"x"] fresh =
    main (smallEnv []) (fun args => k args ⟨false, 7, fresh.obj.tolerance, [], b!"o", []⟩) 9
      [b!"t", b!"-R", b!"3", b!"-O", b!"o", b!"-R", b!"7", b!"x"] fresh := by
  have h := C94_told_what_the_command_line_says (smallEnv []) k 9 fresh rfl b!"t" [(b!"-R", b!"3"), (b!"-O", b!"o"), (b!"-R", b!"7")] [b!"x"]
    (by simp [IsOption]) (by simp [Refused]) (by simp [Stops, IsOption]) (by decide)
  simp only [show lastValue b!"-I" [(b!"-R", b!"3"), (b!"-O", b!"o"), (b!"-R", b!"7")] = none by decide,
    show lastValue b!"-O" [(b!"-R", b!"3"), (b!"-O", b!"o"), (b!"-R", b!"7")] = some b!"o" by decide,
    show lastValue b!"-R" [(b!"-R", b!"3"), (b!"-O", b!"o"), (b!"-R", b!"7")] = some b!"7" by decide,
    show strtolInt b!"7" = 7 by decide +kernel, show (isFile fresh.world.fs b!"o" && !isWritable fresh.world.fs b!"o") = false by decide +kernel] at h
  exact h

/-- A run of steps that meets the hypothesis: after recording a text and setting the expected value twice the test is told the second value. -/
example (k : Settings → Prog) (s : St) (his : s.obj.is = none) (hin : s.obj.inFileName = []) : ∃ s',
    runProg (smallEnv []) (steps [.setExpected 3, .call (.textString b!"x" b!"n"), .setExpected 5] (.ask k)) s =
      runProg (smallEnv []) (k ⟨s'.compareMode, 5, s.obj.tolerance, [], s.obj.outFileName, s.obj.searchPath⟩) s' := by
  have hcm : ∀ t : St, t.obj.is = none → t.obj.inFileName = [] → t.compareMode = false := by
    intro t h1 h2; rw [St.compareMode, h1, h2]; rfl
  obtain ⟨t, ht, -⟩ := renamed_print (.textString b!"x" b!"n") b!"n"
  have h : ∃ s', runProg (smallEnv []) (steps [.setExpected 3, .call (.textString b!"x" b!"n"), .setExpected 5] (.ret 0)) s = (s', .ok 0) := by
    simp only [steps, runProg, runCall, hcm { s with obj := { s.obj with expected := 3 } } his hin, Call.recorded]
    simp only [Call.meas, Meas.setName] at ht ⊢
    simp only [Bool.false_eq_true, if_false]
    rw [ht]
    exact ⟨_, rfl⟩
  obtain ⟨s', h⟩ := h
  have := C94_told_what_was_set (smallEnv []) k _ s s' h
  refine ⟨s', this.trans ?_⟩
  simp only [lastOf, pathAfter, List.filterMap, List.getLast?, List.getLast, Option.getD, hin]

end Verif.Regression
