import Verif.Itk.InsightProps

/-!
# C74 for whole runs: the output file of a comparing run whose measurements are all images
-/

namespace Verif.Itk
open Spec Verif.Regression Verif.Regression.Spec Verif.Measurement

/-! ## Specification -/

/-- A test that does not change files itself. -/
def Spec.LeavesFiles : Prog → Prop
  | .ret _ => True
  | .fails _ => True
  | .call _ k => ∀ r, Spec.LeavesFiles (k r)
  | .act f k => (∀ w, (f w).bytes = w.bytes) ∧ Spec.LeavesFiles k
  | .look k => ∀ w, Spec.LeavesFiles (k w)
  | .ask k => ∀ x, Spec.LeavesFiles (k x)
  | .setTolerance _ k => Spec.LeavesFiles k
  | .setExpected _ k => Spec.LeavesFiles k
  | .setImageTolerance _ k => Spec.LeavesFiles k
  | .setSearchPath _ k => Spec.LeavesFiles k
  | .prependSearchPath _ k => Spec.LeavesFiles k
  | .setInFileName _ k => Spec.LeavesFiles k
  | .setOutFileName _ k => Spec.LeavesFiles k

/-- Each measurement made is of an image file, and has its entry in the baseline. -/
def Spec.AllImages (made : List Obs) (baseline : List Meas) : Prop :=
  ∀ (i : Nat) (o : Obs), made[i]? = some o → ∃ fileName f, baseline[i]? = some (.file f) ∧ f.type = b!"image/itk" ∧ o.call = .fileITK fileName f.name

/-! ## Proofs -/

theorem itk_call (env : Env) (im : ImageEnv) (henv : env.image = some im) (s : St) (fileName : Str) (bytes : Str) (his : s.obj.is = some bytes)
    (f : FileM) (rest : List Meas) (hinput : s.obj.input = .file f :: rest) (htype : f.type = b!"image/itk") :
    (runCall env s (.fileITK fileName f.name)).1.world.bytes = s.world.bytes ∧ (runCall env s (.fileITK fileName f.name)).1.obj.is = some bytes ∧
    (runCall env s (.fileITK fileName f.name)).1.obj.input = rest := by
  have hl := locate_eq { s with obj := { s.obj with input := rest } } (.file f) (Call.fileITK fileName f.name).meas
  obtain ⟨b', hl, h1, h2, _, hb'⟩ := hl
  simp only [Call.meas] at hb'
  subst hb'
  rw [runCall, compareMode_is his, if_pos rfl, compareMeasurement]
  simp only [hinput]
  rw [if_pos ⟨rfl, by simp [Meas.type, htype, Call.meas]⟩, hl]
  simp only [compareVisit, imagePair, henv, Call.meas, if_true]
  split
  · exact ⟨rfl, his, rfl⟩
  · simp only [differenceMeasurement, imagePair, henv, if_true]
    generalize im.diff _ _ _ _ = r
    rcases r with ⟨t, _ | e⟩ <;> exact ⟨rfl, his, rfl⟩

theorem images_leave_files (env : Env) (im : ImageEnv) (henv : env.image = some im) (p : Prog) : ∀ (s : St) (bytes : Str), s.obj.is = some bytes →
    LeavesFiles p → AllImages (observed env p s) s.obj.input →
    (runProg env p s).1.world.bytes = s.world.bytes ∧ (runProg env p s).1.obj.is = some bytes := by
  induction p with
  | ret v => intro s bytes his _ _; exact ⟨rfl, his⟩
  | fails f => intro s bytes his _ _; exact ⟨rfl, his⟩
  | call c k ih =>
    intro s bytes his hk hall
    obtain ⟨fileName, f, hb, ht, hc⟩ := hall 0 (s.obs c) (by simp [observed])
    have hc : c = .fileITK fileName f.name := hc
    rcases hin : s.obj.input with _ | ⟨b, rest⟩
    · rw [hin] at hb; cases hb
    rw [hin] at hb
    cases hb
    subst hc
    obtain ⟨h1, h2, h3⟩ := itk_call env im henv s fileName bytes his f rest hin ht
    simp only [runProg]
    simp only [observed] at hall
    rcases hr : runCall env s (.fileITK fileName f.name) with ⟨s', e | r⟩
    · rw [hr] at h1 h2; exact ⟨h1, h2⟩
    · rw [hr] at h1 h2 h3 hall
      simp only at h1 h2 h3 hall
      have := ih r s' bytes h2 (hk r) (by
        intro i o ho
        have := hall (i + 1) o (by simpa using ho)
        rw [hin] at this
        rw [h3]
        simpa using this)
      exact ⟨this.1.trans h1, this.2⟩
  | act f k ih =>
    intro s bytes his hk hall
    have := ih { s with world := f s.world } bytes his hk.2 hall
    exact ⟨this.1.trans (hk.1 s.world), this.2⟩
  | look k ih => intro s bytes his hk hall; exact ih s.world s bytes his (hk _) hall
  | ask k ih => intro s bytes his hk hall; exact ih s.settings s bytes his (hk _) hall
  | setTolerance t k ih => intro s bytes his hk hall; exact ih { s with obj := { s.obj with tolerance := t } } bytes his hk hall
  | setExpected t k ih => intro s bytes his hk hall; exact ih { s with obj := { s.obj with expected := t } } bytes his hk hall
  | setImageTolerance t k ih => intro s bytes his hk hall; exact ih { s with obj := { s.obj with imageTol := t } } bytes his hk hall
  | setSearchPath t k ih => intro s bytes his hk hall; exact ih { s with obj := { s.obj with searchPath := t } } bytes his hk hall
  | prependSearchPath t k ih => intro s bytes his hk hall; exact ih { s with obj := { s.obj with searchPath := t :: s.obj.searchPath } } bytes his hk hall
  | setInFileName t k ih => intro s bytes his hk hall; exact ih { s with obj := { s.obj with inFileName := t } } bytes his hk hall
  | setOutFileName t k ih => intro s bytes his hk hall; exact ih { s with obj := { s.obj with outFileName := t } } bytes his hk hall

/-- **C74, negative.** A comparing run with an output file whose measurements are all of images with entries in the baseline leaves the output file empty, whatever the images are, however many differ
and however it ends; no other file is changed. -/
theorem C74_output_empty (env : Env) (im : ImageEnv) (henv : env.image = some im) (test : List Str → Prog) (fuel : Nat) (argv : List Str) (s : St) (o : Obj) (args : List Str)
    (hparse : parseArguments s.world.fs fuel { s.obj with unmatched := s.obj.unmatched + 1 } argv = (o, .ok args)) (hout : o.outFileName ≠ [])
    (hin : o.inFileName ≠ []) (s1 : St) (hbegin : beginMeasurement env ⟨o, s.world⟩ = (s1, .ok ()))
    (htest : LeavesFiles (test args)) (hall : AllImages (observed env (test args) s1) s1.obj.input) :
    ∀ n, (main env test fuel argv s).1.world.bytes n = if n = cstr o.outFileName then [] else s.world.bytes n := by
  obtain ⟨hb, bytes, his⟩ : (s1.world.bytes = fun n => if n = cstr o.outFileName then [] else s.world.bytes n) ∧ ∃ b, s1.obj.is = some b := by
    simp only [beginMeasurement, openOutput] at hbegin
    rw [if_pos hout] at hbegin
    simp only [World.openWrite] at hbegin
    split at hbegin
    · simp [Res.andThen] at hbegin
    · rename_i w hw
      split at hw
      · cases hw
        simp only [Res.andThen, openInput] at hbegin
        rw [if_pos hin] at hbegin
        split at hbegin
        · cases hbegin
        · rename_i s' _ hs'
          obtain ⟨hs'', b, hs3⟩ : (s'.world.bytes = fun n => if n = cstr o.outFileName then [] else s.world.bytes n) ∧ ∃ b, s'.obj.is = some b := by
            split at hs'
            · cases hs'
            · cases hs'; exact ⟨rfl, _, rfl⟩
          simp only [startOrRead, compareMode_is hs3, if_true, hs3] at hbegin
          split at hbegin <;> cases hbegin
          exact ⟨hs'', b, by first | exact hs3 | rfl⟩
      · cases hw
  have hrun := images_leave_files env im henv (test args) s1 bytes his htest hall
  have key : (tryBlock env test fuel argv s).1.world.bytes = s1.world.bytes := by
    simp only [tryBlock, hparse, hbegin]
    rcases h : runProg env (test args) s1 with ⟨s2, e | ret⟩
    · rw [h] at hrun; exact hrun.1
    · rw [h] at hrun
      have hc : s2.compareMode = true := compareMode_is hrun.2
      simp only [endMeasurement, hc, if_true]
      exact hrun.1
  intro n
  rw [← congrFun hb n, ← congrFun key n, main]
  rcases tryBlock env test fuel argv s with ⟨s', r, _ | e⟩
  · rfl
  · cases e <;> rfl

/-- The hypotheses are met by a run that finds a difference: the images differ, `Main` returns 1, and the output file stays empty. -/
def differingEnv : Env := { smallEnv [.file { type := b!"image/itk", name := b!"n", fileName := b!"v.mha" }] with
  image := some { compare := fun _ _ _ _ => false, diff := fun _ _ _ _ => (b!"differ", none) } }

example : let test : List Str → Prog := fun _ => .call (.fileITK b!"t.mha" b!"n") fun _ => .ret 0
    let m := main differingEnv test 9 [b!"prog", b!"-I", b!"b", b!"-O", b!"o"] fresh
    m.1.world.bytes b!"o" = [] ∧ m.2 = .ok 1 := by
  intro test m
  have hparse : parseArguments smallWorld.fs 9 { unmatched := 1 } [b!"prog", b!"-I", b!"b", b!"-O", b!"o"] =
      ({ unmatched := 1, inFileName := b!"b", outFileName := b!"o" }, .ok [b!"prog"]) := by
    have := C35_options_removed smallWorld.fs 9 { unmatched := 1 } b!"prog" [(b!"-I", b!"b"), (b!"-O", b!"o")] [] (by simp [IsOption])
      (by simp [Refused]; constructor <;> decide) (by simp [Stops]) (by decide)
    have h : ¬ (Path.isFile smallWorld.fs b!"o" = true ∧ Path.isWritable smallWorld.fs b!"o" = false) := by decide
    simpa [flat, lastValue, values, h] using this
  constructor
  · have := C74_output_empty differingEnv _ rfl test 9 _ fresh _ _ hparse (by decide) (by decide) _ rfl
      (fun _ => trivial) (by
        intro i o ho
        have : i = 0 := by
          rcases i with _ | i
          · rfl
          · exfalso; revert ho; simp [test, observed, runCall]; try (split <;> simp)
        subst this
        cases ho
        exact ⟨_, _, rfl, rfl, rfl⟩) b!"o"
    rw [if_pos (by decide)] at this
    exact this
  · decide +kernel

end Verif.Itk
