import Verif.Stderr.ProgramsSpec
import Verif.Stderr.ImagesProps

/-!
# Property C121: what the programs say
-/

set_option linter.unusedSimpArgs false

namespace Verif.Stderr
open Verif.Measurement Verif.Measurement.Spec Verif.Regression Verif.Regression.Spec Verif.Xml Verif.Xml.Spec Verif.Path Verif.Itk Verif.Itk.Spec Verif.Pipe
open _root_.Verif.Stderr.Spec

/-- **C121.** `tfPipeToXML` with what it says is the program of C55 to C60 and C115. -/
theorem C121_same_pipe (launch : Launch) (texts : ProcessTexts) (argv : List Str) : (pipeTalk launch texts argv).silent = Pipe.test launch argv := by
  cases argv with
  | nil => rfl
  | cons p args =>
    rw [pipeTalk, Pipe.test]
    simp only [Talk.silent]
    cases (launch args).final <;> rfl

theorem imageLoopS_silent (rd : Readers) : ∀ (k : Nat) (args : List Str) (t : ImgTol) (n : Nat), args.length ≤ k → (imageLoopS rd t n args).silent = imageLoop rd t n args := by
  intro k
  induction k with
  | zero =>
    intro args t n h
    rw [List.length_eq_zero_iff.mp (Nat.le_zero.mp h), imageLoopS, imageLoop, Talk.silent]
  | succ k ih =>
    intro args t n h
    cases args with
    | nil => rw [imageLoopS, imageLoop, Talk.silent]
    | cons a rest =>
      rw [imageLoopS.eq_def, imageLoop.eq_def]
      simp only
      have hr : rest.length ≤ k := by simpa using h
      split
      · split
        · cases rest with
          | nil => rfl
          | cons v rest =>
            simp only
            cases rd.real v with
            | none => rfl
            | some x => exact ih rest _ _ (by simp only [List.length_cons] at hr; omega)
        · split
          · cases rest with
            | nil => rfl
            | cons v rest =>
              simp only
              cases rd.unsigned v with
              | none => rfl
              | some x => exact ih rest _ _ (by simp only [List.length_cons] at hr; omega)
          · split
            · cases rest with
              | nil => rfl
              | cons v rest =>
                simp only
                cases rd.unsigned v with
                | none => rfl
                | some x => exact ih rest _ _ (by simp only [List.length_cons] at hr; omega)
            · rfl
      · simp only [Talk.silent]
        rw [ih rest _ _ hr]

/-- **C121.** `itktfImageCompare` with what it says is the program of C73, C93 and C110. -/
theorem C121_same_image (rd : Readers) (argv : List Str) : (imageTalk rd argv).silent = imageTest rd argv := by
  rw [imageTalk, imageTest]
  split
  · simp only [Talk.silent]
    exact imageLoopS_silent rd _ _ _ _ le_rfl
  · exact imageLoopS_silent rd _ _ _ _ le_rfl

/-- **C121.** What `tfPipeToXML` says, after what its measurement says: one line if there is no exit value of the command, and then it returns -1; nothing if the command exited, whatever its value. -/
theorem C121_pipe (env : Env) (voice : ImageVoice) (launch : Launch) (texts : ProcessTexts) (prog : Str) (args : List Str) (s s' : St) (ms : List Str) (r : Int)
    (hcall : runCallS env voice { s with world := Pipe.toCout (b!"Redirecting output from: \"" ++ echoLoop 1 args ++ b!"\"\n") s.world }
      (.textPlain (readLoop (launch args).chunks []) b!"stdout") = (ms, s', .ok r)) :
    (∀ t, whyNot (texts.exception args) (texts.error args) (launch args).final = some t →
      runTalk env voice (pipeTalk launch texts (prog :: args)) s = (ms ++ [t ++ b!"\n"], s', .ok (-1))) ∧
    (∀ v, (launch args).final = .exited v → runTalk env voice (pipeTalk launch texts (prog :: args)) s = (ms, s', .ok v)) := by
  rw [pipeTalk, runTalk, runTalk, hcall]
  simp only
  refine ⟨?_, ?_⟩
  · intro t ht
    cases hf : (launch args).final <;> rw [hf] at ht <;> simp only [whyNot, Option.some.injEq, reduceCtorEq] at ht <;> subst ht <;> simp [endTalk, runTalk, List.append_assoc]
  · intro v hv
    rw [hv]
    simp [endTalk, runTalk]

/-- **C121.** A recording run of `tfPipeToXML`: the lines about the options, and at most the line that says why there is no exit value. -/
theorem C121_pipe_run (X : Expat) (line why : X.State → Str) (env : Env) (voice : ImageVoice) (thrown : Fault → Thrown) (launch : Launch) (texts : ProcessTexts) (fuel : Nat) (prog : Str)
    (ps : List (Str × Str)) (args : List Str) (s : St) (hopt : ∀ p ∈ ps, IsOption p.1) (href : ∀ p ∈ ps, ¬ Refused s.world.fs p) (hstop : Stops args) (hfuel : ps.length < fuel)
    (s1 : St) (hbegin : beginMeasurement (withXML X env) (started s ps) = (s1, .ok ())) (h1 : s1.obj.is = none) (h2 : s1.obj.inFileName = []) :
    (mainS X line why env voice thrown (pipeTalk launch texts) fuel (prog :: (flat ps ++ args)) s).1 =
      outputLines s.world.fs ps ++ ((whyNot (texts.exception args) (texts.error args) (launch args).final).map (· ++ b!"\n")).toList := by
  obtain ⟨s2, hs2⟩ : ∃ s2 : St, s2 = { s1 with world := Pipe.toCout (b!"Redirecting output from: \"" ++ echoLoop 1 args ++ b!"\"\n") s1.world } := ⟨_, rfl⟩
  obtain ⟨c, hc⟩ : ∃ c : Call, c = .textPlain (readLoop (launch args).chunks []) b!"stdout" := ⟨_, rfl⟩
  have h1' : s2.obj.is = none := by rw [hs2]; exact h1
  have h2' : s2.obj.inFileName = [] := by rw [hs2]; exact h2
  have hcall : runCallS (withXML X env) voice s2 c = ([], s2.emit (Regression.Spec.line (recordedMeas c)), .ok 0) := by
    have hr := runCallS_snd (withXML X env) voice s2 c
    rw [runCall_record _ s2 c h1' h2'] at hr
    exact Prod.ext (C119_recording _ voice s2 c (recording s2 h1' h2')) hr
  rw [hs2, hc] at hcall
  obtain ⟨p1, p2⟩ := C121_pipe (withXML X env) voice launch texts prog args s1 _ _ _ hcall
  have hbl : baselineLines X line why s1 = [] := by rw [baselineLines, h1]
  have hrun := (C119_run X line why env voice thrown (pipeTalk launch texts) fuel prog ps args s hopt href hstop hfuel s1 hbegin).2
  rw [hbl, List.append_nil] at hrun
  cases hw : whyNot (texts.exception args) (texts.error args) (launch args).final with
  | some t =>
    rw [p1 t hw] at hrun
    exact hrun (by rintro ⟨m, h⟩; cases h)
  | none =>
    have : ∃ v, (launch args).final = .exited v := by
      cases hf : (launch args).final <;> rw [hf] at hw <;> simp only [whyNot, reduceCtorEq] at hw
      exact ⟨_, rfl⟩
    obtain ⟨v, hv⟩ := this
    rw [p2 v hv] at hrun
    exact hrun (by rintro ⟨m, h⟩; cases h)

theorem Talk.bindImages (k : Talk) (a b : List (ImgTol × Str)) : ∀ n, imagesThen k n (a ++ b) = imagesThen (imagesThen k (n + a.length) b) n a := by
  induction a with
  | nil => intro n; rfl
  | cons x a ih =>
    intro n
    rw [List.cons_append, imagesThen, imagesThen, ih, List.length_cons, show n + 1 + a.length = n + (a.length + 1) by omega]

/-- Arguments that are fine, followed by others. -/
theorem loop_reads (rd : Readers) (t : ImgTol) (args : List Str) (l : List (ImgTol × Str)) (h : Reads rd.real rd.unsigned t args l) (more : List Str) :
    ∀ n, ∃ t', imageLoopS rd t n (args ++ more) = imagesThen (imageLoopS rd t' (n + l.length) more) n l := by
  induction h with
  | done t => intro n; exact ⟨t, rfl⟩
  | intensity t v x rest l hv _ ih =>
    intro n
    obtain ⟨t', h⟩ := ih n
    refine ⟨t', ?_⟩
    rw [List.cons_append, List.cons_append, imageLoopS.eq_def]
    simp only [hv]
    rw [if_pos (by decide), if_pos trivial, h]
  | pixels t v x rest l hv _ ih =>
    intro n
    obtain ⟨t', h⟩ := ih n
    refine ⟨t', ?_⟩
    rw [List.cons_append, List.cons_append, imageLoopS.eq_def]
    simp only [hv]
    rw [if_pos (by decide), if_neg (by decide), if_pos trivial, h]
  | radius t v x rest l hv _ ih =>
    intro n
    obtain ⟨t', h⟩ := ih n
    refine ⟨t', ?_⟩
    rw [List.cons_append, List.cons_append, imageLoopS.eq_def]
    simp only [hv]
    rw [if_pos (by decide), if_neg (by decide), if_neg (by decide), if_pos trivial, h]
  | image t a rest l ha _ ih =>
    intro n
    obtain ⟨t', h⟩ := ih (n + 1)
    refine ⟨t', ?_⟩
    rw [List.cons_append, imageLoopS.eq_def]
    simp only
    rw [if_neg ha, h, imagesThen, List.length_cons, show n + 1 + l.length = n + (l.length + 1) by omega]

theorem loop_wrong (rd : Readers) (args : List Str) (text : Str) (h : Wrong rd.real rd.unsigned args text) (t : ImgTol) (n : Nat) : imageLoopS rd t n args = .say (text ++ b!"\n") (.ret 1) := by
  have hk : ∀ o kind, valueKind o = some kind →
      (o = b!"--intensityTolerance" ∧ kind = b!"double") ∨ (o = b!"--numberOfPixelTolerance" ∧ kind = b!"unsigned int") ∨ (o = b!"--radiusTolerance" ∧ kind = b!"unsigned int") := by
    intro o kind h
    rw [valueKind] at h
    split at h
    · next e => cases h; exact .inl ⟨e, rfl⟩
    · split at h
      · next e =>
        cases h
        rcases e with e | e
        · exact .inr (.inl ⟨e, rfl⟩)
        · exact .inr (.inr ⟨e, rfl⟩)
      · cases h
  cases h with
  | missing o kind hv =>
    rcases hk o kind hv with ⟨rfl, rfl⟩ | ⟨rfl, rfl⟩ | ⟨rfl, rfl⟩
    · rfl
    · rfl
    · rfl
  | real o v rest hv hr =>
    rcases hk o _ hv with ⟨rfl, -⟩ | ⟨rfl, h⟩ | ⟨rfl, h⟩
    · rw [imageLoopS.eq_def]
      simp only [hr]
      rw [if_pos (by decide), if_pos trivial]
      rfl
    · exact absurd h (by decide)
    · exact absurd h (by decide)
  | unsigned o v rest hv hr =>
    rcases hk o _ hv with ⟨rfl, h⟩ | ⟨rfl, h⟩ | ⟨rfl, h⟩
    · exact absurd h (by decide)
    · rw [imageLoopS.eq_def]
      simp only [hr]
      rw [if_pos (by decide), if_neg (by decide), if_pos trivial]
      rfl
    · rw [imageLoopS.eq_def]
      simp only [hr]
      rw [if_pos (by decide), if_neg (by decide), if_neg (by decide), if_pos trivial]
      rfl
  | unknown o rest h0 hv =>
    rw [valueKind] at hv
    have n1 : o ≠ b!"--intensityTolerance" := by intro h; rw [if_pos h] at hv; cases hv
    rw [if_neg n1] at hv
    have n2 : ¬ (o = b!"--numberOfPixelTolerance" ∨ o = b!"--radiusTolerance") := by intro h; rw [if_pos h] at hv; cases hv
    rw [not_or] at n2
    rw [imageLoopS.eq_def]
    simp only
    rw [if_pos h0, if_neg n1, if_neg n2.1, if_neg n2.2]
    rfl

/-- **C121.** `itktfImageCompare` with arguments: if they are fine (C73), it measures the images and says nothing itself. -/
theorem C121_image_fine (rd : Readers) (prog : Str) (args : List Str) (hne : args ≠ []) (l : List (ImgTol × Str)) (h : Reads rd.real rd.unsigned {} args l) :
    imageTalk rd (prog :: args) = imagesThen (.ret 0) 0 l := by
  obtain ⟨t', e⟩ := loop_reads rd {} args l h [] 0
  rw [imageTalk, if_neg (by cases args with | nil => exact absurd rfl hne | cons a r => simp)]
  simp only [List.drop_succ_cons, List.drop_zero]
  rw [List.append_nil] at e
  rw [e, imageLoopS]

/-- **C121.** Otherwise it measures the images in front of the first argument that is wrong, says what is wrong with it, in one line, and returns 1. -/
theorem C121_image_wrong (rd : Readers) (prog : Str) (args wrong : List Str) (text : Str) (l : List (ImgTol × Str)) (h : Reads rd.real rd.unsigned {} args l)
    (hw : Wrong rd.real rd.unsigned wrong text) : imageTalk rd (prog :: (args ++ wrong)) = imagesThen (.say (text ++ b!"\n") (.ret 1)) 0 l := by
  obtain ⟨t', e⟩ := loop_reads rd {} args l h wrong 0
  have hne : wrong ≠ [] := by cases hw <;> simp
  rw [imageTalk, if_neg (by cases args <;> cases wrong <;> simp_all)]
  simp only [List.drop_succ_cons, List.drop_zero]
  rw [e, loop_wrong rd wrong text hw]

/-- Arguments are fine, or there is a first one that is wrong. -/
theorem C121_image_cases (rd : Readers) (t : ImgTol) (args : List Str) : (∃ l, Reads rd.real rd.unsigned t args l) ∨
    ∃ fine wrong text l, args = fine ++ wrong ∧ Reads rd.real rd.unsigned t fine l ∧ Wrong rd.real rd.unsigned wrong text := by
  have key : ∀ (k : Nat) (args : List Str) (t : ImgTol), args.length ≤ k → (∃ l, Reads rd.real rd.unsigned t args l) ∨
      ∃ fine wrong text l, args = fine ++ wrong ∧ Reads rd.real rd.unsigned t fine l ∧ Wrong rd.real rd.unsigned wrong text := by
    intro k
    induction k with
    | zero =>
      intro args t h
      rw [List.length_eq_zero_iff.mp (Nat.le_zero.mp h)]
      exact .inl ⟨[], .done t⟩
    | succ k ih =>
      intro args t h
      cases args with
      | nil => exact .inl ⟨[], .done t⟩
      | cons a rest =>
        have hr : rest.length ≤ k := by simpa using h
        by_cases ha : a.head? = some 45
        · by_cases h1 : a = b!"--intensityTolerance"
          · subst h1
            cases rest with
            | nil => exact .inr ⟨[], _, _, [], rfl, .done t, .missing _ _ rfl⟩
            | cons v rest =>
              rcases hv : rd.real v with _ | x
              · exact .inr ⟨[], _, _, [], rfl, .done t, .real _ _ _ rfl hv⟩
              · rcases ih rest { t with intensity := x } (by simp only [List.length_cons] at hr; omega) with ⟨l, hl⟩ | ⟨fine, wrong, text, l, rfl, hl, hw⟩
                · exact .inl ⟨l, .intensity t v x rest l hv hl⟩
                · exact .inr ⟨_, wrong, text, l, rfl, .intensity t v x fine l hv hl, hw⟩
          · by_cases h2 : a = b!"--numberOfPixelTolerance"
            · subst h2
              cases rest with
              | nil => exact .inr ⟨[], _, _, [], rfl, .done t, .missing _ _ rfl⟩
              | cons v rest =>
                rcases hv : rd.unsigned v with _ | x
                · exact .inr ⟨[], _, _, [], rfl, .done t, .unsigned _ _ _ rfl hv⟩
                · rcases ih rest { t with pixels := x } (by simp only [List.length_cons] at hr; omega) with ⟨l, hl⟩ | ⟨fine, wrong, text, l, rfl, hl, hw⟩
                  · exact .inl ⟨l, .pixels t v x rest l hv hl⟩
                  · exact .inr ⟨_, wrong, text, l, rfl, .pixels t v x fine l hv hl, hw⟩
            · by_cases h3 : a = b!"--radiusTolerance"
              · subst h3
                cases rest with
                | nil => exact .inr ⟨[], _, _, [], rfl, .done t, .missing _ _ rfl⟩
                | cons v rest =>
                  rcases hv : rd.unsigned v with _ | x
                  · exact .inr ⟨[], _, _, [], rfl, .done t, .unsigned _ _ _ rfl hv⟩
                  · rcases ih rest { t with radius := x } (by simp only [List.length_cons] at hr; omega) with ⟨l, hl⟩ | ⟨fine, wrong, text, l, rfl, hl, hw⟩
                    · exact .inl ⟨l, .radius t v x rest l hv hl⟩
                    · exact .inr ⟨_, wrong, text, l, rfl, .radius t v x fine l hv hl, hw⟩
              · exact .inr ⟨[], _, _, [], rfl, .done t, .unknown a rest ha (by rw [valueKind, if_neg h1, if_neg (by rintro (h | h); exact h2 h; exact h3 h)])⟩
        · rcases ih rest t hr with ⟨l, hl⟩ | ⟨fine, wrong, text, l, rfl, hl, hw⟩
          · exact .inl ⟨_, .image t a rest l ha hl⟩
          · exact .inr ⟨_, wrong, text, _, rfl, .image t a fine l ha hl, hw⟩
  exact key _ args t le_rfl

/-- **C121, negative.** Without arguments it prints its usage, and then succeeds. -/
theorem C121_image_usage (env : Env) (voice : ImageVoice) (rd : Readers) (prog : Str) (s : St) : runTalk env voice (imageTalk rd [prog]) s = (usage prog, s, .ok 0) := by
  rw [imageTalk, if_pos (by simp)]
  simp only [runTalk, List.drop_succ_cons, List.drop_zero, imageLoopS]
  rfl

/-- What is said and done while images are recorded. -/
theorem images_recorded (env : Env) (voice : ImageVoice) (k : Talk) : ∀ (l : List (ImgTol × Str)) (n : Nat) (s : St), s.obj.is = none → s.obj.inFileName = [] →
    ∃ s', s'.obj.is = none ∧ s'.obj.inFileName = [] ∧ runTalk env voice (imagesThen k n l) s = runTalk env voice k s' := by
  intro l
  induction l with
  | nil => intro n s h1 h2; exact ⟨s, h1, h2, rfl⟩
  | cons x l ih =>
    intro n s h1 h2
    obtain ⟨t, file⟩ := x
    obtain ⟨s2, hs2⟩ : ∃ s2 : St, s2 = { s with obj := { s.obj with imageTol := t } } := ⟨_, rfl⟩
    have h1' : s2.obj.is = none := by rw [hs2]; exact h1
    have h2' : s2.obj.inFileName = [] := by rw [hs2]; exact h2
    have hr := runCallS_snd env voice s2 (.fileITK file (b!"ImageFile" ++ natText n))
    rw [runCall_record env s2 _ h1' h2'] at hr
    have hx := Prod.ext (x := runCallS env voice s2 (.fileITK file (b!"ImageFile" ++ natText n))) (y := ([], _, .ok 0))
      (C119_recording env voice s2 _ (recording s2 h1' h2')) hr
    obtain ⟨s', a, b, e⟩ := ih (n + 1) (s2.emit (Regression.Spec.line (recordedMeas (.fileITK file (b!"ImageFile" ++ natText n))))) (by rw [emit_obj]; exact h1') (by rw [emit_obj]; exact h2')
    refine ⟨s', a, b, ?_⟩
    rw [imagesThen, runTalk, runTalk, ← hs2, hx, ← e]
    rfl

/-- **C121.** A recording run of `itktfImageCompare` with arguments that is not stopped before: besides the lines about the options it says exactly one line, and `Test` returns 1, if an argument is wrong, and
nothing, and `Test` returns 0, if they are fine. -/
theorem C121_image_run (X : Expat) (line why : X.State → Str) (env : Env) (voice : ImageVoice) (thrown : Fault → Thrown) (rd : Readers) (fuel : Nat) (prog : Str)
    (ps : List (Str × Str)) (args : List Str) (s : St) (hopt : ∀ p ∈ ps, IsOption p.1) (href : ∀ p ∈ ps, ¬ Refused s.world.fs p) (hstop : Stops args) (hfuel : ps.length < fuel)
    (s1 : St) (hbegin : beginMeasurement (withXML X env) (started s ps) = (s1, .ok ())) (h1 : s1.obj.is = none) (h2 : s1.obj.inFileName = []) (hne : args ≠ []) :
    (∀ l, Reads rd.real rd.unsigned {} args l →
      (mainS X line why env voice thrown (imageTalk rd) fuel (prog :: (flat ps ++ args)) s).1 = outputLines s.world.fs ps ∧
      (runProg (withXML X env) (imageTest rd (prog :: args)) s1).2 = .ok 0) ∧
    (∀ fine wrong text l, args = fine ++ wrong → Reads rd.real rd.unsigned {} fine l → Wrong rd.real rd.unsigned wrong text →
      (mainS X line why env voice thrown (imageTalk rd) fuel (prog :: (flat ps ++ args)) s).1 = outputLines s.world.fs ps ++ [text ++ b!"\n"] ∧
      (runProg (withXML X env) (imageTest rd (prog :: args)) s1).2 = .ok 1) := by
  have hbl : baselineLines X line why s1 = [] := by rw [baselineLines, h1]
  have hrun := (C119_run X line why env voice thrown (imageTalk rd) fuel prog ps args s hopt href hstop hfuel s1 hbegin).2
  rw [hbl, List.append_nil] at hrun
  have hsil := runTalk_snd (withXML X env) voice (imageTalk rd (prog :: args)) s1
  rw [C121_same_image] at hsil
  refine ⟨?_, ?_⟩
  · intro l hl
    obtain ⟨s', -, -, e⟩ := images_recorded (withXML X env) voice (.ret 0) l 0 s1 h1 h2
    rw [← C121_image_fine rd prog args hne l hl] at e
    rw [← hsil]
    rw [e] at hrun ⊢
    exact ⟨by rw [hrun (by rintro ⟨m, h⟩; cases h)]; simp [runTalk], rfl⟩
  · intro fine wrong text l ha hl hw
    obtain ⟨s', -, -, e⟩ := images_recorded (withXML X env) voice (.say (text ++ b!"\n") (.ret 1)) l 0 s1 h1 h2
    rw [← C121_image_wrong rd prog fine wrong text l hl hw, ← ha] at e
    rw [← hsil]
    rw [e] at hrun ⊢
    exact ⟨hrun (by rintro ⟨m, h⟩; cases h), rfl⟩

/-! ## Examples -/

def pipeTexts : ProcessTexts := ⟨fun _ => b!"SIGSEGV", fun _ => b!"no such file"⟩

/-- A command that crashes. -/
example : (mainS reference (fun _ => b!"1") (fun _ => b!"why") (smallEnv []) noVoice errorThrown (pipeTalk (fun _ => ⟨[(.stdout, b!"x")], .exception⟩) pipeTexts) 9 [b!"prog", b!"cmd", b!"arg"]
    ⟨{}, errorWorld⟩).1 = [b!"Child terminated abnormally: SIGSEGV\n"] :=
  C121_pipe_run reference _ _ (smallEnv []) noVoice errorThrown (fun _ => ⟨[(.stdout, b!"x")], .exception⟩) pipeTexts 9 b!"prog" [] [b!"cmd", b!"arg"] ⟨{}, errorWorld⟩ (by simp) (by simp)
    (by simp [Stops, IsOption]) (by decide) _ rfl rfl rfl

/-- A command that fails says nothing. -/
example : (mainS reference (fun _ => b!"1") (fun _ => b!"why") (smallEnv []) noVoice errorThrown (pipeTalk (fun _ => ⟨[], .exited 3⟩) pipeTexts) 9 [b!"prog", b!"cmd"] ⟨{}, errorWorld⟩).1 = [] :=
  C121_pipe_run reference _ _ (smallEnv []) noVoice errorThrown (fun _ => ⟨[], .exited 3⟩) pipeTexts 9 b!"prog" [] [b!"cmd"] ⟨{}, errorWorld⟩ (by simp) (by simp)
    (by simp [Stops, IsOption]) (by decide) _ rfl rfl rfl

/-- Reads "1" only. -/
def ones : Readers := ⟨fun v => if v = b!"1" then some 1 else none, fun v => if v = b!"1" then some 1 else none⟩

/-- An image, an option, another image, and an option with a value that cannot be read. -/
example : (mainS reference (fun _ => b!"1") (fun _ => b!"why") (smallEnv []) noVoice errorThrown (imageTalk ones) 9
    [b!"prog", b!"a.mha", b!"--radiusTolerance", b!"1", b!"b.mha", b!"--intensityTolerance", b!"x", b!"c.mha"] ⟨{}, errorWorld⟩).1 =
    [b!"Expected double to follow --intensityTolerance but got \"x\"\n"] :=
  ((C121_image_run reference _ _ (smallEnv []) noVoice errorThrown ones 9 b!"prog" [] [b!"a.mha", b!"--radiusTolerance", b!"1", b!"b.mha", b!"--intensityTolerance", b!"x", b!"c.mha"]
    ⟨{}, errorWorld⟩ (by simp) (by simp) (by simp [Stops, IsOption]) (by decide) _ rfl rfl rfl (by simp)).2 [b!"a.mha", b!"--radiusTolerance", b!"1", b!"b.mha"]
    [b!"--intensityTolerance", b!"x", b!"c.mha"] _ _ rfl (.image _ _ _ _ (by decide) (.radius _ _ 1 _ _ rfl (.image _ _ _ _ (by decide) (.done _)))) (.real _ _ _ rfl rfl)).1

end Verif.Stderr
