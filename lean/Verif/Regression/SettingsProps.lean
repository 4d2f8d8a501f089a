import Verif.Xml.RunProps

/-!
# Properties C46 and C94: the settings of the object, within a run and from one run to the next
-/

set_option linter.unusedSimpArgs false

namespace Verif.Regression
open Spec Verif.Path Verif.Measurement Verif.Measurement.Spec Verif.Xml Verif.Xml.Spec

/-- A test that leaves the expected value, the file names and the search path of the object alone. -/
def Spec.Settled : Prog → Prop
  | .ret _ => True
  | .fails _ => True
  | .call _ k => ∀ r, Spec.Settled (k r)
  | .act _ k => Spec.Settled k
  | .look k => ∀ w, Spec.Settled (k w)
  | .ask k => ∀ x, Spec.Settled (k x)
  | .setTolerance _ k => Spec.Settled k
  | .setExpected _ _ => False
  | .setImageTolerance _ k => Spec.Settled k
  | .setSearchPath _ _ => False
  | .prependSearchPath _ _ => False
  | .setInFileName _ _ => False
  | .setOutFileName _ _ => False

/-! ## C94: within a run -/

/-- **C94.** A measurement call, recording or comparing and however it ends, changes no setting of the object: what the `Get` functions tell is
the same before and after, apart from `GetCompareMode`, which depends on the files. -/
theorem C94_calls_keep_settings (env : Env) (s : St) (c : Call) :
    (runCall env s c).1.settings = { s.settings with compareMode := (runCall env s c).1.compareMode } ∧
    (runCall env s c).1.obj.imageTol = s.obj.imageTol ∧
    (∀ bytes, s.obj.is = some bytes → (runCall env s c).1.compareMode = true ∧ s.compareMode = true) := by
  obtain ⟨i, u, h⟩ := runCall_frame env s c
  refine ⟨by simp only [St.settings, h], by rw [h], fun bytes hb => ⟨compareMode_is (b := bytes) (by rw [h]; exact hb), compareMode_is hb⟩⟩

/-- The object with other file names. -/
def St.rename (s : St) (a b : Str) : St := { s with obj := { s.obj with inFileName := a, outFileName := b } }

theorem emit_rename (s : St) (a b t : Str) : (s.rename a b).emit t = (s.emit t).rename a b := by
  rcases s with ⟨o, w⟩
  simp only [St.rename, St.emit]
  split <;> rfl

theorem unmatched_rename (s : St) (a b : Str) (m : Meas) :
    unmatchedMeasurement (s.rename a b) m = ((unmatchedMeasurement s m).1.rename a b, (unmatchedMeasurement s m).2) := by
  simp only [unmatchedMeasurement]
  split
  · rfl
  · rw [← emit_rename]; rfl

theorem difference_rename (env : Env) (s : St) (a b : Str) (t m : Meas) :
    differenceMeasurement env (s.rename a b) t m = ((differenceMeasurement env s t m).1.rename a b, (differenceMeasurement env s t m).2) := by
  simp only [differenceMeasurement]
  split
  · next im f g _ =>
    have e : im.diff (s.rename a b).world (s.rename a b).obj.imageTol g f = im.diff s.world s.obj.imageTol g f := rfl
    rw [e]
    rcases im.diff s.world s.obj.imageTol g f with ⟨t, _ | e⟩ <;> rfl
  · split
    · rfl
    · rw [← emit_rename]; rfl

theorem compareVisit_rename (env : Env) (s : St) (a b : Str) (tol : Bool) (m t : Meas) :
    compareVisit env (s.rename a b) tol m t = ((compareVisit env s tol m t).1.rename a b, (compareVisit env s tol m t).2) := by
  simp only [compareVisit]
  split <;> rfl

theorem compare_rename (env : Env) (s : St) (a b : Str) (m : Meas) (tol : Bool) :
    compareMeasurement env (s.rename a b) m tol = ((compareMeasurement env s m tol).1.rename a b, (compareMeasurement env s m tol).2) := by
  have hun : ∀ s : St, ((unmatchedMeasurement (s.rename a b) m).andThen fun s _ => (s, .ok (1 : Int))) =
      (((unmatchedMeasurement s m).andThen fun s _ => (s, .ok (1 : Int))).1.rename a b, ((unmatchedMeasurement s m).andThen fun s _ => (s, .ok (1 : Int))).2) := by
    intro s
    rw [unmatched_rename]
    rcases unmatchedMeasurement s m with ⟨s2, f | u⟩ <;> rfl
  have hin : (s.rename a b).obj.input = s.obj.input := rfl
  simp only [compareMeasurement, hin]
  cases s.obj.input with
  | nil => exact hun s
  | cons x rest =>
    simp only
    have e : ({ s.rename a b with obj := { (s.rename a b).obj with input := rest } } : St) = St.rename { s with obj := { s.obj with input := rest } } a b := rfl
    rw [e]
    generalize ({ s with obj := { s.obj with input := rest } } : St) = s1
    split
    · have hl : locateBaseline (s1.rename a b) x m = locateBaseline s1 x m := rfl
      rw [hl]
      cases locateBaseline s1 x m with
      | error f => rfl
      | ok x' =>
        simp only
        rw [compareVisit_rename]
        rcases compareVisit env s1 tol x' m with ⟨s2, x2, t2, f | same⟩
        · rfl
        · simp only
          cases same with
          | true => rfl
          | false =>
            simp only [Bool.false_eq_true, if_false]
            rw [difference_rename]
            rcases differenceMeasurement env s2 t2 x2 with ⟨s3, f | u⟩ <;> rfl
    · exact hun s1

theorem runCall_rename (env : Env) (s : St) (a b : Str) (c : Call) (h : (s.rename a b).compareMode = s.compareMode) :
    runCall env (s.rename a b) c = ((runCall env s c).1.rename a b, (runCall env s c).2) := by
  simp only [runCall, h]
  split
  · exact compare_rename env s a b _ _
  · split
    · rfl
    · split
      · rfl
      · rw [emit_rename]

/-- A test that does not ask for the settings of the object. -/
def Spec.Blind : Prog → Prop
  | .ret _ => True
  | .fails _ => True
  | .call _ k => ∀ r, Spec.Blind (k r)
  | .act _ k => Spec.Blind k
  | .look k => ∀ w, Spec.Blind (k w)
  | .ask _ => False
  | .setTolerance _ k => Spec.Blind k
  | .setExpected _ k => Spec.Blind k
  | .setImageTolerance _ k => Spec.Blind k
  | .setSearchPath _ k => Spec.Blind k
  | .prependSearchPath _ k => Spec.Blind k
  | .setInFileName _ k => Spec.Blind k
  | .setOutFileName _ k => Spec.Blind k

/-- **C94.** In a run that is compared with a baseline the names set with `SetInFileName` and `SetOutFileName` have no effect until `Main` ends: the
same is measured, counted, written and returned whatever they are. -/
theorem C94_names_have_no_effect (env : Env) (p : Prog) : Spec.Blind p → ∀ (s : St) (a b bytes : Str), s.obj.is = some bytes →
    ∃ a' b', runProg env p (s.rename a b) = ((runProg env p s).1.rename a' b', (runProg env p s).2) ∧
      observed env p (s.rename a b) = observed env p s := by
  induction p with
  | ret v => intro _ s a b bytes his; exact ⟨a, b, rfl, rfl⟩
  | fails f => intro _ s a b bytes his; exact ⟨a, b, rfl, rfl⟩
  | call c k ih =>
    intro hb s a b bytes his
    have hr := runCall_rename env s a b c (by rw [compareMode_is his, compareMode_is (s := s.rename a b) his])
    obtain ⟨i, u, hf⟩ := runCall_frame env s c
    simp only [runProg, observed, hr]
    rcases hc : runCall env s c with ⟨s1, f | r⟩
    · exact ⟨a, b, rfl, rfl⟩
    · rw [hc] at hf
      simp only at hf ⊢
      obtain ⟨a', b', h1, h2⟩ := ih r (hb r) s1 a b bytes (by rw [hf]; exact his)
      exact ⟨a', b', h1, by rw [h2]; rfl⟩
  | act f k ih => intro hb s a b bytes his; exact ih hb { s with world := f s.world } a b bytes his
  | look k ih => intro hb s a b bytes his; exact ih s.world (hb s.world) s a b bytes his
  | ask k ih => intro hb; exact hb.elim
  | setTolerance t k ih => intro hb s a b bytes his; exact ih hb { s with obj := { s.obj with tolerance := t } } a b bytes his
  | setExpected v k ih => intro hb s a b bytes his; exact ih hb { s with obj := { s.obj with expected := v } } a b bytes his
  | setImageTolerance t k ih => intro hb s a b bytes his; exact ih hb { s with obj := { s.obj with imageTol := t } } a b bytes his
  | setSearchPath ps k ih => intro hb s a b bytes his; exact ih hb { s with obj := { s.obj with searchPath := ps } } a b bytes his
  | prependSearchPath p k ih => intro hb s a b bytes his; exact ih hb { s with obj := { s.obj with searchPath := p :: s.obj.searchPath } } a b bytes his
  | setInFileName n k ih => intro hb s a b bytes his; exact ih hb { s with obj := { s.obj with inFileName := n } } n b bytes his
  | setOutFileName n k ih => intro hb s a b bytes his; exact ih hb { s with obj := { s.obj with outFileName := n } } a n bytes his

/-- A run in which a name is set between two measurements. -/
example : Spec.Blind (.call (.textString b!"x" b!"n") fun _ => .setInFileName b!"other" (.call (.textString b!"y" b!"m") .ret)) ∧
    (runProg (smallEnv []) (.call (.textString b!"x" b!"n") fun _ => .setInFileName b!"other" (.call (.textString b!"y" b!"m") .ret))
      ⟨{ is := some [], input := [.data { kind := .string, name := b!"n", content := b!"x" }, .data { kind := .string, name := b!"m", content := b!"z" }] },
        smallWorld⟩).2 = .ok 0 := ⟨fun _ _ => trivial, by decide +kernel⟩

/-! ### Naming a baseline while recording -/

/-- A printed measurement of a call under another name. -/
theorem renamed_print (c : Call) (n : Str) : ∃ t, (c.meas.setName n).print = .ok t ∧ t ++ b!"\n" = line (c.meas.setName n) := by
  have hs : match c.meas with
    | .data d => d.encoding = b!"none" ∧ d.compression = b!"none" ∧ d.escape = true
    | .file f => f.escape = true := by
    cases c <;> simp [Call.meas, DataM.setInteger, DataM.setBoolean, DataM.setContent]
  cases hm : c.meas with
  | data d =>
    rw [hm] at hs
    obtain ⟨h1, h2, h3⟩ := hs
    simp only [Meas.setName, Meas.print, Meas.printContent, Meas.escape, h3, if_true, C25_escape_exact, bind, Except.bind, pure, Except.pure]
    exact ⟨_, rfl, by simp [Meas.startTag, Meas.endTag, Meas.element, h1, h2, line, Meas.name, Meas.type, Meas.content, List.append_assoc]⟩
  | file f =>
    rw [hm] at hs
    simp only at hs
    simp only [Meas.setName, Meas.print, Meas.printContent, Meas.escape, hs, if_true, C25_escape_exact, bind, Except.bind, pure, Except.pure]
    exact ⟨_, rfl, by simp [Meas.startTag, Meas.endTag, Meas.element, line, Meas.name, Meas.type, Meas.content, List.append_assoc]⟩

/-- A call while nothing has been opened for reading but a baseline is named: with nothing left of the baseline it is an unmatched one. -/
theorem runCall_named (env : Env) (s : St) (c : Call) (hcm : s.compareMode = true) (hin : s.obj.input = []) :
    runCall env s c = (St.emit { s with obj := { s.obj with unmatched := s.obj.unmatched + 1 } }
      (line (c.meas.setName (b!"Unmatched " ++ c.meas.name))), .ok 1) := by
  obtain ⟨t, ht, hl⟩ := renamed_print c (b!"Unmatched " ++ c.meas.name)
  rw [runCall, if_pos hcm]
  simp only [compareMeasurement, hin, unmatchedMeasurement, ht, Res.andThen, hl]

theorem compareMode_frame (s s' : St) (h1 : s'.obj.is = s.obj.is) (h2 : s'.obj.inFileName = s.obj.inFileName)
    (h3 : s'.obj.searchPath = s.obj.searchPath) (h4 : s'.world.fs = s.world.fs) : s'.compareMode = s.compareMode := by
  simp only [St.compareMode, Obj.searched, h1, h2, h3, h4]
  rfl

/-- A row of calls with a named but not opened baseline. -/
theorem straight_named (env : Env) (v : Int) : ∀ (cs : List Call) (s : St) (o : Str), s.compareMode = true → s.obj.input = [] → s.obj.os = some o →
    ∃ s2, runProg env (straight v cs) s = (s2, .ok v) ∧ s2.obj = { s.obj with unmatched := s.obj.unmatched + cs.length } ∧
      s2.world.fs = s.world.fs ∧
      s2.world.bytes (cstr o) = s.world.bytes (cstr o) ++ (cs.map fun c => line (c.meas.setName (b!"Unmatched " ++ c.meas.name))).flatten := by
  intro cs
  induction cs with
  | nil => intro s o _ _ _; exact ⟨s, rfl, by simp, rfl, by simp⟩
  | cons c cs ih =>
    intro s o hcm hin hos
    have hc := runCall_named env s c hcm hin
    generalize hs1 : St.emit { s with obj := { s.obj with unmatched := s.obj.unmatched + 1 } }
      (line (c.meas.setName (b!"Unmatched " ++ c.meas.name))) = s1 at hc
    have ho1 : s1.obj = { s.obj with unmatched := s.obj.unmatched + 1 } := by rw [← hs1, emit_obj]
    have hf1 : s1.world.fs = s.world.fs := by rw [← hs1, emit_fs]
    have hb1 : s1.world.bytes (cstr o) = s.world.bytes (cstr o) ++ line (c.meas.setName (b!"Unmatched " ++ c.meas.name)) := by
      rw [← hs1]; simp [St.emit, hos]
    obtain ⟨s2, h1, h2, h3, h4⟩ := ih s1 o (by rw [← hcm]; exact compareMode_frame s s1 (by rw [ho1]) (by rw [ho1]) (by rw [ho1]) hf1)
      (by rw [ho1]; exact hin) (by rw [ho1]; exact hos)
    refine ⟨s2, by rw [straight, runProg]; simp only [hc]; exact h1, ?_, by rw [h3, hf1], ?_⟩
    · rw [h2, ho1]
      simp only [List.length_cons, Nat.cast_add, Nat.cast_one]
      congr 1
      omega
    · rw [h4, hb1]
      simp [List.append_assoc]

/-- **C94, negative.** In a recording run a test that names a readable file with `SetInFileName` before it measures records nothing: the file has not been
read, so every measurement is counted as a failure and written as unmatched, the document stays without its end, and `Main` returns the number
of measurements although the test succeeded. -/
theorem C94_naming_a_baseline_while_recording (env : Env) (cs : List Call) (fuel : Nat) (hfuel : 1 < fuel) (prog f n : Str) (w : World)
    (hf : f ≠ []) (hcreate : w.creatable (cstr f) = true)
    (hnew : w.fs.stat (cstr f) = none ∨ (w.fs.canRead (cstr f) = true ∧ w.fs.canWrite (cstr f) = true))
    (hn : n ≠ []) (hfile : w.fs.stat (cstr n) = some .regular ∧ w.fs.canRead (cstr n) = true) :
    let r := main env (fun _ => .setInFileName n (straight 0 cs)) fuel [prog, b!"-O", f] ⟨{}, w⟩
    r.2 = .ok cs.length ∧
    r.1.world.bytes (cstr f) = header w ++ (cs.map fun c => line (c.meas.setName (b!"Unmatched " ++ c.meas.name))).flatten := by
  have hnw : ¬ (isFile w.fs f = true ∧ isWritable w.fs f = false) := by
    rintro ⟨h1, h2⟩
    rcases hnew with h | ⟨_, h⟩
    · simp [isFile, h] at h1
    · simp [isWritable, isDirectory, h] at h2
      simp [isFile, h2.1] at h1
  have hparse : parseArguments w.fs fuel { unmatched := 0 + 1 } [prog, b!"-O", f] = ({ unmatched := 0 + 1, outFileName := f }, .ok [prog]) := by
    have := C35_options_removed w.fs fuel { unmatched := 0 + 1 } prog [(b!"-O", f)] [] (by simp [IsOption])
      (by simp [Refused]) (by simp [Stops]) (by simpa using hfuel)
    rw [flat] at this
    simp only [flat, List.append_nil] at this
    rw [this]
    have e1 : lastValue b!"-R" [(b!"-O", f)] = none := by simp [lastValue]
    have e2 : lastValue b!"-I" [(b!"-O", f)] = none := by simp [lastValue]
    have e3 : lastValue b!"-O" [(b!"-O", f)] = some f := by simp [lastValue]
    have e4 : values b!"-P" [(b!"-O", f)] = [] := by simp [values]
    rw [e1, e2, e3, e4]
    simp [hnw]
  obtain ⟨w', hwr, hb, hbytes⟩ := begin_record env ⟨{ unmatched := 0 + 1, outFileName := f }, w⟩ rfl rfl hf hcreate
  simp only at hwr hb hbytes
  have hfs' : w'.fs.stat (cstr n) = some .regular ∧ w'.fs.canRead (cstr n) = true := by
    simp only [World.openWrite, if_pos hcreate, Option.some.injEq] at hwr
    subst hwr
    refine ⟨?_, ?_⟩
    · simp only [hfile.1]; split <;> rfl
    · simp only [hfile.2]; split <;> rfl
  generalize hs1 : St.emit ⟨({ os := some f, unmatched := 0 + 1, outFileName := f } : Obj), w'⟩ (header w) = s1 at hb
  have ho1 : s1.obj = { os := some f, unmatched := 0 + 1, outFileName := f } := by rw [← hs1, emit_obj]
  have hf1 : s1.world.fs = w'.fs := by rw [← hs1, emit_fs]
  have hb1 : s1.world.bytes (cstr f) = header w := by rw [← hs1]; simp [St.emit, hbytes]
  have hcm : ∀ s : St, s.obj.is = none → s.obj.inFileName = n → s.obj.searchPath = [] → s.world.fs = w'.fs → s.compareMode = true := by
    intro s g1 g2 g3 g4
    have : Path.searchPathList w'.fs n [] = [] := by simp [Path.searchPathList, Path.searchLoop]
    simp [St.compareMode, g1, g2, Obj.searched, g3, g4, this, hn, isFile, isReadable, isDirectory, hfs'.1, hfs'.2]
  obtain ⟨s2, r1, r2, r3, r4⟩ := straight_named env 0 cs { s1 with obj := { s1.obj with inFileName := n } } f
    (hcm _ (by rw [ho1]) rfl (by rw [ho1]) hf1) (by rw [ho1]) (by rw [ho1])
  simp only at r2 r3 r4
  rw [ho1] at r2
  have hcm2 : s2.compareMode = true := hcm s2 (by rw [r2]) (by rw [r2]) (by rw [r2]) (by rw [r3, hf1])
  have hrun : runProg env (.setInFileName n (straight 0 cs)) s1 = (s2, .ok 0) := by rw [runProg]; exact r1
  intro r
  have hr : r = main env (fun _ => .setInFileName n (straight 0 cs)) fuel [prog, b!"-O", f] ⟨{}, w⟩ := rfl
  simp only [main, tryBlock, hparse, hb, hrun, endMeasurement, hcm2, if_true] at hr
  rw [hr]
  refine ⟨?_, ?_⟩
  · simp only [mainValue]
    rw [if_neg (by rw [r2]; simp), if_pos (hcm _ rfl (by simp only; rw [r2]) (by simp only; rw [r2]) (by rw [r3, hf1])), r2]
    simp only [Except.ok.injEq]
    omega
  · simp only
    rw [r4, hb1]

/-- The file "b" can be read, and the test names it after it has recorded into "o". -/
example : (main (smallEnv []) (fun _ => .setInFileName b!"b" (straight 0 [.textString b!"x" b!"n", .textString b!"y" b!"m"])) 9
    [b!"prog", b!"-O", b!"o"] fresh).2 = .ok 2 :=
  (C94_naming_a_baseline_while_recording (smallEnv []) [.textString b!"x" b!"n", .textString b!"y" b!"m"] 9 (by decide) b!"prog" b!"o" b!"b" smallWorld
    (by decide) rfl (.inl rfl) (by decide) ⟨rfl, rfl⟩).1

/-! ## C46: from one run to the next -/

theorem runProg_settled (env : Env) (p : Prog) : Spec.Settled p → ∀ s, (runProg env p s).1.obj.expected = s.obj.expected ∧
    (runProg env p s).1.obj.searchPath = s.obj.searchPath ∧ (runProg env p s).1.obj.inFileName = s.obj.inFileName ∧
    (runProg env p s).1.obj.outFileName = s.obj.outFileName := by
  induction p with
  | ret v => intro _ s; exact ⟨rfl, rfl, rfl, rfl⟩
  | fails f => intro _ s; exact ⟨rfl, rfl, rfl, rfl⟩
  | call c k ih =>
    intro hb s
    obtain ⟨i, u, hf⟩ := runCall_frame env s c
    rw [runProg]
    rcases hc : runCall env s c with ⟨s1, f | r⟩
    · rw [hc] at hf; simp only at hf ⊢; rw [hf]; exact ⟨rfl, rfl, rfl, rfl⟩
    · rw [hc] at hf
      simp only at hf ⊢
      have := ih r (hb r) s1
      rw [hf] at this
      exact this
  | act f k ih => intro hb s; exact ih hb { s with world := f s.world }
  | look k ih => intro hb s; exact ih s.world (hb s.world) s
  | ask k ih => intro hb s; exact ih s.settings (hb s.settings) s
  | setTolerance t k ih => intro hb s; exact ih hb { s with obj := { s.obj with tolerance := t } }
  | setImageTolerance t k ih => intro hb s; exact ih hb { s with obj := { s.obj with imageTol := t } }
  | setExpected v k ih => intro hb; exact hb.elim
  | setSearchPath ps k ih => intro hb; exact hb.elim
  | prependSearchPath p k ih => intro hb; exact hb.elim
  | setInFileName n k ih => intro hb; exact hb.elim
  | setOutFileName n k ih => intro hb; exact hb.elim

/-- What no step of beginning a run changes. -/
theorem begin_frame (env : Env) (s : St) : ∃ os is input, (beginMeasurement env s).1.obj = { s.obj with os := os, is := is, input := input } := by
  have h1 : ∀ s : St, ∃ os, (openOutput s).1.obj = { s.obj with os := os } := by
    intro s
    rw [openOutput]
    split
    · split
      · exact ⟨_, rfl⟩
      · exact ⟨_, rfl⟩
    · exact ⟨s.obj.os, rfl⟩
  have h2 : ∀ s : St, ∃ is, (openInput s).1.obj = { s.obj with is := is } := by
    intro s
    rw [openInput]
    split
    · simp only
      split
      · exact ⟨_, rfl⟩
      · exact ⟨_, rfl⟩
    · exact ⟨s.obj.is, rfl⟩
  have h3 : ∀ s : St, ∃ input, (startOrRead env s).1.obj = { s.obj with input := input } := by
    intro s
    rw [startOrRead]
    split
    · split
      · exact ⟨s.obj.input, rfl⟩
      · split
        · exact ⟨s.obj.input, rfl⟩
        · exact ⟨_, rfl⟩
    · exact ⟨s.obj.input, by rw [emit_obj]⟩
  rw [beginMeasurement]
  obtain ⟨os, e1⟩ := h1 s
  rcases ho : openOutput s with ⟨s1, f | u⟩
  · rw [ho] at e1; exact ⟨os, s.obj.is, s.obj.input, by simp only [Res.andThen]; rw [e1]⟩
  · rw [ho] at e1
    simp only [Res.andThen] at e1 ⊢
    obtain ⟨is, e2⟩ := h2 s1
    rcases hi : openInput s1 with ⟨s2, f | u⟩
    · rw [hi] at e2; exact ⟨os, is, s.obj.input, by simp only at e2 ⊢; rw [e2, e1]⟩
    · rw [hi] at e2
      simp only at e2 ⊢
      obtain ⟨input, e3⟩ := h3 s2
      exact ⟨os, is, input, by rw [e3, e2, e1]⟩

theorem end_frame (s : St) : ∃ input, (endMeasurement s).obj = { s.obj with os := none, is := none, input := input } := by
  simp only [endMeasurement]
  split
  · exact ⟨_, rfl⟩
  · rw [emit_obj]; exact ⟨_, rfl⟩

/-- **C46.** After a call of `Main` with options that were not refused the object keeps what they set, however the run ended, for all later
calls: the expected value, the search path and the file names.  (For a test that does not change them itself.) -/
theorem C46_options_stay (env : Env) (test : List Str → Prog) (fuel : Nat) (s : St) (prog : Str) (ps : List (Str × Str)) (rest : List Str)
    (hopt : ∀ p ∈ ps, IsOption p.1) (href : ∀ p ∈ ps, ¬ Refused s.world.fs p) (hstop : Stops rest) (hfuel : ps.length < fuel)
    (htest : Spec.Settled (test (prog :: rest))) :
    let o := (main env test fuel (prog :: (flat ps ++ rest)) s).1.obj
    o.expected = (match lastValue b!"-R" ps with | none => s.obj.expected | some v => strtolInt v) ∧
    o.searchPath = (values b!"-P" ps).reverse ++ s.obj.searchPath ∧
    o.inFileName = (match lastValue b!"-I" ps with | none => s.obj.inFileName | some v => v) ∧
    o.outFileName = (match lastValue b!"-O" ps with
      | none => s.obj.outFileName
      | some v => if isFile s.world.fs v && !isWritable s.world.fs v then s.obj.outFileName else v) := by
  have hp := C35_options_removed s.world.fs fuel { s.obj with unmatched := s.obj.unmatched + 1 } prog ps rest hopt href hstop hfuel
  simp only at hp
  generalize ho : ({ s.obj with
          unmatched := s.obj.unmatched + 1
          expected := (match lastValue b!"-R" ps with | none => s.obj.expected | some v => strtolInt v)
          searchPath := (values b!"-P" ps).reverse ++ s.obj.searchPath
          inFileName := (match lastValue b!"-I" ps with | none => s.obj.inFileName | some v => v)
          outFileName := (match lastValue b!"-O" ps with
            | none => s.obj.outFileName
            | some v => if isFile s.world.fs v && !isWritable s.world.fs v then s.obj.outFileName else v) } : Obj) = o at hp
  have hall : ∀ o' : Obj, (o'.expected = o.expected ∧ o'.searchPath = o.searchPath ∧ o'.inFileName = o.inFileName ∧ o'.outFileName = o.outFileName) →
      o'.expected = (match lastValue b!"-R" ps with | none => s.obj.expected | some v => strtolInt v) ∧
      o'.searchPath = (values b!"-P" ps).reverse ++ s.obj.searchPath ∧
      o'.inFileName = (match lastValue b!"-I" ps with | none => s.obj.inFileName | some v => v) ∧
      o'.outFileName = (match lastValue b!"-O" ps with
        | none => s.obj.outFileName
        | some v => if isFile s.world.fs v && !isWritable s.world.fs v then s.obj.outFileName else v) := by
    intro o' h; rw [h.1, h.2.1, h.2.2.1, h.2.2.2, ← ho]; exact ⟨rfl, rfl, rfl, rfl⟩
  apply hall
  have htry : (main env test fuel (prog :: (flat ps ++ rest)) s).1 = (tryBlock env test fuel (prog :: (flat ps ++ rest)) s).1 := by
    rw [main]
    split <;> next h => rw [h]
  rw [htry]
  simp only [tryBlock, hp]
  obtain ⟨os, is, input, hb⟩ := begin_frame env ⟨o, s.world⟩
  rcases hbr : beginMeasurement env ⟨o, s.world⟩ with ⟨s1, f | u⟩
  · rw [hbr] at hb; simp only at hb ⊢; rw [hb]; exact ⟨rfl, rfl, rfl, rfl⟩
  · rw [hbr] at hb
    simp only at hb ⊢
    have hr := runProg_settled env _ htest s1
    rw [hb] at hr
    rcases hrr : runProg env (test (prog :: rest)) s1 with ⟨s2, f | v⟩
    · rw [hrr] at hr; exact hr
    · rw [hrr] at hr
      simp only at hr ⊢
      obtain ⟨inp, he⟩ := end_frame s2
      rw [he]
      exact hr

/-- **C46, negative.** An expectation given with "-R" holds for later calls too: for every value but 0 a test that returns it fails on a new object but passes
on an object that was once called with that expectation. -/
theorem C46_expectation_stays (env : Env) (v : Int) (hv : v ≠ 0) (t : Str) (ht : IsDecimal v t) (h1 : intMin ≤ v) (h2 : v ≤ intMax)
    (fuel : Nat) (hfuel : 1 < fuel) (prog : Str) (w : World) :
    let first := main env (fun _ => .ret v) fuel [prog, b!"-R", t] ⟨{}, w⟩
    first.2 = .ok 0 ∧ (main env (fun _ => .ret v) fuel [prog] first.1).2 = .ok 0 ∧
      (main env (fun _ => .ret v) fuel [prog] ⟨{}, first.1.world⟩).2 = .ok v := by
  have hrec : ∀ (s : St), s.obj.inFileName = [] → s.obj.outFileName = [] → s.obj.is = none → ∃ s1, beginMeasurement env s = (s1, .ok ()) ∧
      s1.obj = s.obj := by
    intro s a1 a2 a3
    have hcm : s.compareMode = false := recording s a3 a1
    refine ⟨s.emit (header s.world), ?_, by rw [emit_obj]⟩
    simp only [beginMeasurement, openOutput, a2, ne_eq, not_true_eq_false, if_false, Res.andThen, openInput, a1, startOrRead, hcm,
      Bool.false_eq_true]
  have hgo : ∀ (s : St) (o : Obj) (argv : List Str), parseArguments s.world.fs fuel { s.obj with unmatched := s.obj.unmatched + 1 } argv = (o, .ok [prog]) →
      o.inFileName = [] → o.outFileName = [] → o.is = none → ∃ s', main env (fun _ => .ret v) fuel argv s =
        (s', .ok (if v = o.expected then 0 else v)) ∧ s'.obj = { o with os := none, unmatched := o.unmatched - 1 } := by
    intro s o argv hp a1 a2 a3
    obtain ⟨s1, hb, ho⟩ := hrec ⟨o, s.world⟩ a1 a2 a3
    simp only at ho
    have hcm : s1.compareMode = false := recording s1 (by rw [ho]; exact a3) (by rw [ho]; exact a1)
    have hval := C38_record_value env (fun _ => .ret v) fuel argv s o [prog] s1 s1 v hp hb rfl (by rw [ho]; exact a1)
    refine ⟨(main env (fun _ => .ret v) fuel argv s).1, ?_, ?_⟩
    · rw [← ho, ← hval]
    · simp only [main, tryBlock, hp, hb, runProg, endMeasurement, hcm, Bool.false_eq_true, if_false, emit_obj, ho]
      rw [a3]
  have hone : ∀ (fs : FileSys) (o : Obj), parseArguments fs fuel o [prog] = (o, .ok [prog]) := by
    intro fs o
    have := C35_options_removed fs fuel o prog [] [] (by simp) (by simp) (by simp [Stops]) (by simp; omega)
    simpa [flat, lastValue, values] using this
  have hR : parseArguments w.fs fuel { unmatched := 0 + 1 } [prog, b!"-R", t] = ({ unmatched := 0 + 1, expected := v }, .ok [prog]) := by
    have := C35_options_removed w.fs fuel { unmatched := 0 + 1 } prog [(b!"-R", t)] [] (by simp [IsOption]) (by simp [Refused])
      (by simp [Stops]) (by simpa using hfuel)
    simp only [flat, List.append_nil] at this
    rw [this]
    have e1 : lastValue b!"-R" [(b!"-R", t)] = some t := by simp [lastValue]
    have e2 : lastValue b!"-I" [(b!"-R", t)] = none := by simp [lastValue]
    have e3 : lastValue b!"-O" [(b!"-R", t)] = none := by simp [lastValue]
    have e4 : values b!"-P" [(b!"-R", t)] = [] := by simp [values]
    rw [e1, e2, e3, e4]
    simp [C36_expected_value v t ht h1 h2]
  obtain ⟨s', hm, hs'⟩ := hgo ⟨{}, w⟩ _ [prog, b!"-R", t] hR rfl rfl rfl
  intro first
  have hfirst : first = (s', .ok 0) := by rw [show first = main env (fun _ => .ret v) fuel [prog, b!"-R", t] ⟨{}, w⟩ from rfl, hm, if_pos rfl]
  rw [hfirst]
  refine ⟨rfl, ?_, ?_⟩
  · obtain ⟨s'', hm2, _⟩ := hgo s' _ [prog] (hone _ _) (by rw [hs']) (by rw [hs']) (by rw [hs'])
    simp only
    rw [hm2, if_pos (by rw [hs'])]
  · obtain ⟨s'', hm2, _⟩ := hgo ⟨{}, s'.world⟩ _ [prog] (hone _ _) rfl rfl rfl
    simp only
    rw [hm2, if_neg hv]

/-- Options that meet the hypotheses of `C46_options_stay`: after "-R 7 -I b" the object expects 7 and compares with "b". -/
example : let o := (main (smallEnv []) (fun _ => textTest 3) 9 [b!"prog", b!"-R", b!"7", b!"-I", b!"b"] fresh).1.obj
    o.expected = 7 ∧ o.inFileName = b!"b" := by
  have h := C46_options_stay (smallEnv []) (fun _ => textTest 3) 9 fresh b!"prog" [(b!"-R", b!"7"), (b!"-I", b!"b")] [] (by simp [IsOption])
    (by simp [Refused]; decide +kernel) (by simp [Stops]) (by decide) (by simp [textTest, Spec.Settled])
  exact ⟨h.1.trans (by decide +kernel), h.2.2.1⟩

/-! ### C38: expected values -/

/-- **C38, negative.** For every test, every value `v` but 0, every file system, state of the object and baseline: with "-R v" a test that returns 0, not `v`, passes. -/
theorem C38_expectation_missed (env : Env) (test : List Str → Prog) (fuel : Nat) (s : St) (prog : Str) (ps : List (Str × Str)) (rest : List Str)
    (hopt : ∀ p ∈ ps, IsOption p.1) (href : ∀ p ∈ ps, ¬ Refused s.world.fs p) (hstop : Stops rest) (hfuel : ps.length < fuel)
    (htest : Spec.Settled (test (prog :: rest))) (v : Int) (hv : v ≠ 0) (t : Str) (hR : lastValue b!"-R" ps = some t) (ht : IsDecimal v t) (h1 : intMin ≤ v) (h2 : v ≤ intMax)
    (hret : (tryBlock env test fuel (prog :: (flat ps ++ rest)) s).2 = (0, none)) :
    (main env test fuel (prog :: (flat ps ++ rest)) s).2 = .ok 0 := by
  obtain ⟨h, -⟩ := C46_options_stay env test fuel s prog ps rest hopt href hstop hfuel htest
  rw [hR] at h
  simp only [C36_expected_value v t ht h1 h2] at h
  rw [main] at h ⊢
  rcases hb : tryBlock env test fuel (prog :: (flat ps ++ rest)) s with ⟨s', r, f⟩
  rw [hb] at hret h
  cases hret
  simp only at h ⊢
  rw [mainValue, h, if_pos (Ne.symm hv)]

/-- **C38.** An option the framework refuses: the test, whatever it is, is not run, and `Main` returns -1, but 0 if the options before it say that -1 is expected. (For
an object that has no baseline yet.) -/
theorem C38_refused_option (env : Env) (test : List Str → Prog) (fuel : Nat) (s : St) (hin : s.obj.inFileName = []) (his : s.obj.is = none) (prog : Str)
    (ps : List (Str × Str)) (bad : Str × Str) (after : List Str) (hopt : ∀ p ∈ ps, IsOption p.1 ∧ ¬ Refused s.world.fs p) (hbad : Refused s.world.fs bad)
    (hfuel : ps.length < fuel) :
    (main env test fuel (prog :: (flat ps ++ bad.1 :: bad.2 :: after)) s).2 =
        .ok (if (match lastValue b!"-R" ps with | none => s.obj.expected | some v => strtolInt v) = -1 then 0 else -1) ∧
      (main env test fuel (prog :: (flat ps ++ bad.1 :: bad.2 :: after)) s).1.world = s.world := by
  obtain ⟨m, hp⟩ := C36_refused_throws s.world.fs fuel { s.obj with unmatched := s.obj.unmatched + 1 } prog ps bad after hopt hbad hfuel
  simp only [main, tryBlock, hp, mainValue]
  refine ⟨?_, trivial⟩
  rw [St.compareMode]
  simp only [his, hin, if_true, Bool.false_eq_true, if_false]
  congr 1
  by_cases h : (match lastValue b!"-R" ps with | none => s.obj.expected | some v => strtolInt v) = -1
  · rw [if_pos h, if_neg (fun h' => h' h.symm)]
  · rw [if_neg h, if_pos (fun h' => h h'.symm)]

/-- **C38, negative.** With "-R -1" before it, every "-I" with a file that cannot be read is accepted: `Main` returns 0 for every test, which is not run; after it, "-R -1"
does not help. -/
theorem C38_missing_baseline_accepted (env : Env) (test : List Str → Prog) (fuel : Nat) (hfuel : 1 < fuel) (w : World) (prog file : Str) (after : List Str)
    (hfile : ¬ (isFile w.fs file = true ∧ isReadable w.fs file = true)) :
    (main env test fuel (prog :: b!"-R" :: b!"-1" :: b!"-I" :: file :: after) ⟨{}, w⟩).2 = .ok 0 ∧
    (main env test fuel (prog :: b!"-I" :: file :: b!"-R" :: b!"-1" :: after) ⟨{}, w⟩).2 = .ok (-1) := by
  have hbad : Refused w.fs (b!"-I", file) := Or.inl ⟨rfl, hfile⟩
  constructor
  · exact (C38_refused_option env test fuel ⟨{}, w⟩ rfl rfl prog [(b!"-R", b!"-1")] (b!"-I", file) after (by simp [IsOption, Refused]) hbad (by simpa using hfuel)).1
  · exact (C38_refused_option env test fuel ⟨{}, w⟩ rfl rfl prog [] (b!"-I", file) (b!"-R" :: b!"-1" :: after) (by simp) hbad (by simp; omega)).1

/-- A test that returns 0 where 3 is expected passes, also when it made two measurements that fail. -/
example : (main (smallEnv []) (fun _ => textTest 2) 9 [b!"prog", b!"-R", b!"3", b!"-I", b!"b"] fresh).2 = .ok 0 :=
  C38_expectation_missed (smallEnv []) (fun _ => textTest 2) 9 fresh b!"prog" [(b!"-R", b!"3"), (b!"-I", b!"b")] [] (by simp [IsOption])
    (by simp [Refused]; decide +kernel) (by simp [Stops]) (by decide) (by simp [textTest, Spec.Settled]) 3 (by decide) b!"3" rfl ⟨b!"3", by decide, by decide, by decide, by decide, by decide⟩ (by decide) (by decide) (by decide +kernel)

/-! ### The count over any history -/

theorem runCall_count (env : Env) (s : St) (c : Call) : s.obj.unmatched ≤ (runCall env s c).1.obj.unmatched := by
  have hun : ∀ s : St, s.obj.unmatched ≤ ((unmatchedMeasurement s c.meas).andThen fun s _ => (s, .ok (1 : Int))).1.obj.unmatched := by
    intro s
    obtain ⟨t, ht⟩ := print_ok (c.meas.setName (b!"Unmatched " ++ c.meas.name))
    simp only [unmatchedMeasurement, ht, Res.andThen, emit_obj]
    omega
  rw [runCall]
  split
  · rw [compareMeasurement]
    split
    · exact hun s
    · next b rest _ =>
      simp only
      split
      · split
        · exact Int.le_refl _
        · next b' _ =>
          have hv : ∀ s : St, (compareVisit env s c.tolerant b' c.meas).1.obj = s.obj := by
            intro s; rw [compareVisit]; split <;> rfl
          have hv' := hv { s with obj := { s.obj with input := rest } }
          rcases hcv : compareVisit env { s with obj := { s.obj with input := rest } } c.tolerant b' c.meas with ⟨s2, x2, t2, f | same⟩
          · rw [hcv] at hv'; simp only at hv' ⊢; rw [hv']
          · rw [hcv] at hv'
            simp only at hv' ⊢
            cases same with
            | true => rw [if_pos rfl]; simp only; rw [hv']
            | false =>
              rw [if_neg (by decide)]
              have hd : (differenceMeasurement env s2 t2 x2).1.obj.unmatched = s2.obj.unmatched + 1 := by
                simp only [differenceMeasurement]
                split
                · split <;> rfl
                · split
                  · rfl
                  · rw [emit_obj]
              rcases hdm : differenceMeasurement env s2 t2 x2 with ⟨s3, f | u⟩
              · rw [hdm] at hd; simp only [Res.andThen] at hd ⊢; rw [hd, hv']; simp only; omega
              · rw [hdm] at hd; simp only [Res.andThen] at hd ⊢; rw [hd, hv']; simp only; omega
      · exact hun { s with obj := { s.obj with input := rest } }
  · split
    · exact Int.le_refl _
    · split
      · exact Int.le_refl _
      · rw [emit_obj]

theorem runProg_count (env : Env) (p : Prog) : ∀ s : St, s.obj.unmatched ≤ (runProg env p s).1.obj.unmatched := by
  induction p with
  | ret v => intro s; exact Int.le_refl _
  | fails f => intro s; exact Int.le_refl _
  | call c k ih =>
    intro s
    have h1 := runCall_count env s c
    rw [runProg]
    rcases hc : runCall env s c with ⟨s1, f | r⟩
    · rw [hc] at h1; exact h1
    · rw [hc] at h1; exact Int.le_trans h1 (ih r s1)
  | act f k ih => intro s; exact ih { s with world := f s.world }
  | look k ih => intro s; exact ih s.world s
  | ask k ih => intro s; exact ih s.settings s
  | setTolerance t k ih => intro s; exact ih { s with obj := { s.obj with tolerance := t } }
  | setExpected v k ih => intro s; exact ih { s with obj := { s.obj with expected := v } }
  | setImageTolerance t k ih => intro s; exact ih { s with obj := { s.obj with imageTol := t } }
  | setSearchPath ps k ih => intro s; exact ih { s with obj := { s.obj with searchPath := ps } }
  | prependSearchPath p k ih => intro s; exact ih { s with obj := { s.obj with searchPath := p :: s.obj.searchPath } }
  | setInFileName n k ih => intro s; exact ih { s with obj := { s.obj with inFileName := n } }
  | setOutFileName n k ih => intro s; exact ih { s with obj := { s.obj with outFileName := n } }

theorem parseLoop_count (fs : FileSys) : ∀ (fuel : Nat) (o : Obj) (a : Args), (parseLoop fs fuel o a).1.unmatched = o.unmatched := by
  intro fuel
  induction fuel with
  | zero => intro o a; rfl
  | succ n ih =>
    intro o a
    rw [parseLoop]
    repeat' split
    all_goals first
      | rfl
      | exact ih _ _

theorem parse_count (fs : FileSys) (fuel : Nat) (o : Obj) (argv : List Str) : (parseArguments fs fuel o argv).1.unmatched = o.unmatched := by
  have h := parseLoop_count fs fuel o { argc := argv.length, argv := argv }
  rw [parseArguments]
  rcases hl : parseLoop fs fuel o { argc := argv.length, argv := argv } with ⟨o', f | a⟩
  · rw [hl] at h; exact h
  · rw [hl] at h
    simp only at h ⊢
    cases a.infname <;> cases a.outfname <;> exact h

theorem try_count (env : Env) (test : List Str → Prog) (fuel : Nat) (argv : List Str) (s : St) :
    s.obj.unmatched ≤ (tryBlock env test fuel argv s).1.obj.unmatched ∧
    (∀ f, (tryBlock env test fuel argv s).2.2 = some f → s.obj.unmatched + 1 ≤ (tryBlock env test fuel argv s).1.obj.unmatched) := by
  simp only [tryBlock]
  have hp := parse_count s.world.fs fuel { s.obj with unmatched := s.obj.unmatched + 1 } argv
  rcases hpr : parseArguments s.world.fs fuel { s.obj with unmatched := s.obj.unmatched + 1 } argv with ⟨o, f | rest⟩
  · rw [hpr] at hp; simp only at hp ⊢; exact ⟨by omega, fun _ _ => by omega⟩
  · rw [hpr] at hp
    simp only at hp ⊢
    obtain ⟨os, is, input, hb⟩ := begin_frame env ⟨o, s.world⟩
    rcases hbr : beginMeasurement env ⟨o, s.world⟩ with ⟨s1, f | u⟩
    · rw [hbr] at hb; simp only at hb ⊢; rw [hb]; exact ⟨by simp only; omega, fun _ _ => by simp only; omega⟩
    · rw [hbr] at hb
      simp only at hb ⊢
      have hr := runProg_count env (test rest) s1
      rw [hb] at hr
      simp only at hr
      rcases hrr : runProg env (test rest) s1 with ⟨s2, f | v⟩
      · rw [hrr] at hr; simp only at hr ⊢; exact ⟨by omega, fun _ _ => by omega⟩
      · rw [hrr] at hr
        simp only at hr ⊢
        obtain ⟨inp, he⟩ := end_frame s2
        rw [he]
        refine ⟨by simp only; omega, fun f hf => by cases hf⟩

theorem main_state (env : Env) (test : List Str → Prog) (fuel : Nat) (argv : List Str) (s : St) :
    (main env test fuel argv s).1 = (tryBlock env test fuel argv s).1 := by
  rw [main]
  split <;> next h => rw [h]

/-- The calls of `Main` on one object, one after the other, with any tests and arguments; between two calls the files and the settings of the object
may change in any way. -/
inductive Spec.History (env : Env) (s : St) : St → Prop
  | none : Spec.History env s s
  | call {s1 s2 : St} (o : Obj) (w : World) (test : List Str → Prog) (fuel : Nat) (argv : List Str) (v : Int) : Spec.History env s s1 →
      o.unmatched = s1.obj.unmatched → main env test fuel argv ⟨o, w⟩ = (s2, .ok v) → Spec.History env s s2

/-- **C46, negative.** What the object has counted never becomes less, whatever is called afterwards: once a measurement has failed, `Main` returns 0
only if the value of the test differs from the expected one and is 0, or no baseline is there. -/
theorem C46_failed_once_failed_for_ever (env : Env) (s s' : St) (h : Spec.History env s s') :
    s.obj.unmatched ≤ s'.obj.unmatched ∧
    (0 < s.obj.unmatched → ∀ (o : Obj) (w : World) (test : List Str → Prog) (fuel : Nat) (argv : List Str) (s2 : St),
      o.unmatched = s'.obj.unmatched → main env test fuel argv ⟨o, w⟩ = (s2, .ok 0) → s2.compareMode = false ∨ s2.obj.expected ≠ 0) := by
  have hle : s.obj.unmatched ≤ s'.obj.unmatched := by
    induction h with
    | none => exact Int.le_refl _
    | @call s1 s2 o w test fuel argv v _ ho hm ih =>
      have h1 := (try_count env test fuel argv ⟨o, w⟩).1
      rw [← main_state, hm] at h1
      simp only at h1
      omega
  refine ⟨hle, fun hpos o w test fuel argv s2 ho hm => ?_⟩
  have h1 := (try_count env test fuel argv ⟨o, w⟩).1
  rw [← main_state, hm] at h1
  simp only at h1
  have hval : ∃ r, mainValue s2 r = 0 := by
    rw [main] at hm
    split at hm
    · next s3 r _ => injection hm with a b; subst a; injection b with b; exact ⟨r, b⟩
    · next s3 r _ _ => injection hm with a b; subst a; injection b with b; exact ⟨r, b⟩
    · injection hm with a b; cases b
  obtain ⟨r, hr⟩ := hval
  rw [mainValue] at hr
  by_cases he : r = s2.obj.expected
  · rw [if_neg (by simpa using he)] at hr
    cases hcm : s2.compareMode with
    | false => exact .inl rfl
    | true => rw [hcm, if_pos rfl] at hr; omega
  · rw [if_pos he] at hr
    subst hr
    exact .inr (Ne.symm he)

/-- **C46, negative.** A run that an exception ended counts as a failure in every later run. -/
theorem C46_exception_counts (env : Env) (test : List Str → Prog) (fuel : Nat) (argv : List Str) (s s' : St) (m : String) (r : Int)
    (h : tryBlock env test fuel argv s = (s', r, some (.thrown m))) : (main env test fuel argv s).1 = s' ∧ s.obj.unmatched + 1 ≤ s'.obj.unmatched := by
  have h1 := (try_count env test fuel argv s).2
  rw [h] at h1
  exact ⟨by rw [main_state, h], h1 _ rfl⟩

/-- A test that throws, and then one that agrees with the empty baseline: the second returns 1. -/
example : ∃ s', Spec.History (smallEnv []) fresh s' ∧ 0 < s'.obj.unmatched ∧ (main (smallEnv []) (fun _ => .ret 0) 9 withBaseline s').2 = .ok 1 :=
  ⟨_, .call fresh.obj fresh.world (fun _ => .fails (.thrown "x")) 9 withBaseline (-1) .none rfl (Prod.ext rfl (by decide +kernel)), by decide +kernel,
    by decide +kernel⟩

end Verif.Regression
