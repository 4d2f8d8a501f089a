import Verif.Whole.Steps
import Verif.Whole.FilesSpec
import Verif.Itk.ProgramProps

/-!
# Property C130: tests that measure files
-/

set_option linter.unusedSimpArgs false

namespace Verif.Whole
open Verif.Measurement Verif.Measurement.Spec Verif.Regression Verif.Regression.Spec Verif.Decimal Verif.Decimal.Spec Verif.Xml Verif.Xml.Spec Spec RepoTests
open Verif.Path (isFile isReadable isWritable isDirectory searchPathList)
open Verif.Itk (lookedUp_search last_baseName baseName_last baseName_slashless baseName_id)
open Verif.Itk.Spec (LookedUp LastComponent)
open Verif.Pipe.Spec (expectation)

/-- The call that measures a file, tfRegressionTest.h:156, 188-193. -/
def _root_.Verif.Whole.Spec.FileItem.call (x : FileItem) : Call :=
  match x.kind with
  | .text => .fileTextPlain x.path x.name
  | .png => .filePNG x.path x.name
  | .jpeg => .fileJPEG x.path x.name

/-- A test that measures files chosen by its arguments and by whether it compares, and returns 0. -/
def filesTest (files : List Str → Bool → List FileItem) (argv : List Str) : Prog := .ask fun s => calls ((files argv s.compareMode).map FileItem.call)

/-- The type of the measurement. -/
def _root_.Verif.Whole.Spec.FileKind.type : FileKind → Str
  | .text => b!"text/plain"
  | .png => b!"image/png"
  | .jpeg => b!"image/jpeg"

theorem file_meas (x : FileItem) : x.call.meas = .file { type := x.kind.type, name := x.name, fileName := x.path } := by
  obtain ⟨n, k, p⟩ := x
  cases k <;> rfl

theorem file_tolerant (x : FileItem) : x.call.tolerant = false := by
  obtain ⟨n, k, p⟩ := x
  cases k <;> rfl

theorem file_recorded (x : FileItem) : recordedMeas x.call = .file { type := x.kind.type, name := x.name, fileName := baseName x.path } := by
  rw [recordedMeas, file_meas]

theorem emit_noStream (s : St) (t : Str) (h : s.obj.os = none) : s.emit t = { s with world := { s.world with cout := s.world.cout ++ t } } := by
  rw [St.emit, h]

/-- A call that measures a file ends normally in compare mode and changes nothing but standard output and the counters. -/
theorem file_call (env : Env) (himg : env.image = none) (s : St) (x : FileItem) (bytes : Str)
    (his : s.obj.is = some bytes) (hos : s.obj.os = none) (hb : ∀ b ∈ s.obj.input, Plainly b) (hn : x.name ≠ []) :
    ∃ s' v t u, runCall env s x.call = (s', .ok v) ∧ s'.world = { s.world with cout := t } ∧ s'.obj = { s.obj with input := s.obj.input.drop 1, unmatched := u } := by
  have hn' : x.call.meas.name ≠ [] := by rw [file_meas]; exact hn
  rw [runCall, compareMode_is his, if_pos rfl, compareMeasurement]
  have hun : ∀ s : St, s.obj.os = none → ∃ s' t, unmatchedMeasurement s x.call.meas = (s', .ok ()) ∧
      s'.obj = { s.obj with unmatched := s.obj.unmatched + 1 } ∧ s'.world = { s.world with cout := t } := by
    intro s h
    obtain ⟨t, ht⟩ := print_ok (x.call.meas.setName (b!"Unmatched " ++ x.call.meas.name))
    simp only [unmatchedMeasurement, ht]
    rw [emit_noStream _ _ (by exact h)]
    exact ⟨_, _, rfl, rfl, rfl⟩
  cases hi : s.obj.input with
  | nil =>
    obtain ⟨s', t, h1, h2, h3⟩ := hun s hos
    simp only [h1, Res.andThen]
    exact ⟨_, _, t, _, rfl, h3, by rw [h2, List.drop_nil, ← hi]⟩
  | cons b rest =>
    simp only
    by_cases hnt : b.name = x.call.meas.name ∧ b.type = x.call.meas.type
    · rw [if_pos hnt]
      obtain ⟨s0, hs0⟩ : ∃ s0 : St, s0 = { s with obj := { s.obj with input := rest } } := ⟨_, rfl⟩
      rw [← hs0]
      obtain ⟨b', hl, -⟩ := locate_eq s0 b x.call.meas
      have hip : ∀ b t, imagePair env b t = none := by intro b t; simp only [imagePair, himg]
      rw [hl]
      simp only
      rcases visit_agree env s0 b x.call (hb b (by simp [hi])) hn' hnt.1 hnt.2 b' hl (hip _ _) with ⟨_, h, _⟩ | ⟨r, t', b'', hv, _⟩
      · exfalso
        rw [file_tolerant] at h
        cases h
      · rw [compareVisit, hip]
        simp only [hv]
        cases r with
        | true => exact ⟨_, _, s.world.cout, s.obj.unmatched, rfl, by rw [hs0], by rw [hs0]; rfl⟩
        | false =>
          have ht' : t' = x.call.meas := by
            have : ∀ (v : CompareVisitor) (n : NumEnv) (f : Files) (b : Meas) (g : FileM), (v.visit n f b (.file g)).2.1 = .file g := by
              intro v n f b g
              rw [visit_file]
              cases b with
              | data d => rfl
              | file f => rw [Meas.isEqual]; split <;> rfl
            have h := this (visitorFor s0 x.call.tolerant) env.num s0.world.openRead b' { type := x.kind.type, name := x.name, fileName := x.path }
            rw [← file_meas, hv] at h
            exact h
          simp only [Bool.false_eq_true, if_false, differenceMeasurement, hip]
          subst ht'
          obtain ⟨d, hd⟩ := difference_ok env b'' x.call (by
            intro content name h
            obtain ⟨n, k, p⟩ := x
            cases k <;> cases h)
          rw [hd]
          simp only [Res.andThen]
          rw [emit_noStream _ _ (by rw [hs0]; exact hos)]
          exact ⟨_, _, _, _, rfl, by rw [hs0], by rw [hs0]; rfl⟩
    · rw [if_neg hnt]
      obtain ⟨s', t, h1, h2, h3⟩ := hun { s with obj := { s.obj with input := rest } } hos
      simp only [h1, Res.andThen]
      exact ⟨_, _, t, _, rfl, h3, by rw [h2]; rfl⟩

/-- A run of such calls in compare mode ends normally and observes the calls in order; the files are as they were and the search path stays. -/
theorem files_run (env : Env) (himg : env.image = none) : ∀ (xs : List FileItem) (s : St) (bytes : Str), s.obj.is = some bytes → s.obj.os = none →
    (∀ b ∈ s.obj.input, Plainly b) → (∀ x ∈ xs, x.name ≠ []) →
    ∃ s', runProg env (calls (xs.map FileItem.call)) s = (s', .ok 0) ∧ s'.world.fs = s.world.fs ∧ s'.obj.expected = s.obj.expected ∧
      (s'.obj.inFileName = s.obj.inFileName ∧ s'.obj.searchPath = s.obj.searchPath) ∧
      (observed env (calls (xs.map FileItem.call)) s).map (·.call) = xs.map FileItem.call ∧
      ∀ o ∈ observed env (calls (xs.map FileItem.call)) s, o.path = s.obj.searchPath ∧ o.world.fs = s.world.fs ∧ o.world.bytes = s.world.bytes := by
  intro xs
  induction xs with
  | nil => intro s _ _ _ _ _; exact ⟨s, rfl, rfl, rfl, ⟨rfl, rfl⟩, rfl, by simp [calls, observed]⟩
  | cons x xs ih =>
    intro s bytes his hos hb hn
    obtain ⟨s', r, t, u, h1, h2, h3⟩ := file_call env himg s x bytes his hos hb (hn x (by simp))
    obtain ⟨s'', g1, g2, g3, g6, g4, g5⟩ := ih s' bytes (by rw [h3]; exact his) (by rw [h3]; exact hos)
      (by rw [h3]; exact fun b hb' => hb b (List.mem_of_mem_drop hb')) (fun y hy => hn y (by simp [hy]))
    have e : calls ((x :: xs).map FileItem.call) = .call x.call fun _ => calls (xs.map FileItem.call) := rfl
    rw [e, runProg, observed, h1]
    refine ⟨s'', g1, by rw [g2, h2], by rw [g3, h3], by rw [g6.1, g6.2, h3]; exact ⟨rfl, rfl⟩, by simp only [List.map_cons, g4], ?_⟩
    intro o ho
    rcases List.mem_cons.mp ho with rfl | ho
    · exact ⟨rfl, rfl, rfl⟩
    · obtain ⟨k1, k2, k3⟩ := g5 o ho
      exact ⟨by rw [k1, h3], by rw [k2, h2], by rw [k3, h2]⟩

theorem lookedUp_total (fs : Path.FileSys) (name : Str) : ∀ dirs : List Str, ∃ place, LookedUp fs name dirs place
  | [] => ⟨_, .asIs⟩
  | [d] => ⟨_, .last d _ (Itk.append_inDir d name)⟩
  | d :: d' :: ds => by
    by_cases h : Itk.Spec.HasFile fs (Path.append d name)
    · exact ⟨_, .here d _ _ (Itk.append_inDir d name) h⟩
    · obtain ⟨p, hp⟩ := lookedUp_total fs name (d' :: ds)
      exact ⟨p, .next d d' ds _ p (Itk.append_inDir d name) h hp⟩

theorem openRead_of (w w' : World) (hfs : w'.fs = w.fs) (hb : w'.bytes = w.bytes) (n : Str) : w'.openRead n = w.openRead n := by
  simp only [World.openRead, hfs, hb]

/-- When the measurement of a file agrees with a recorded one. -/
theorem agree_file (env : Env) (himg : env.image = none) (w : World) (dirs : List Str) (x y : FileItem) (hx : x.Valid) (o : Obs)
    (ho : o.call = y.call) (hp : o.path = dirs) (hfs : o.world.fs = w.fs) (hb : o.world.bytes = w.bytes) :
    Agree env (recordedMeas x.call) o ↔ SameText w dirs x y := by
  have hlast : baseName x.path ≠ [] := (hx.2.2 _ (baseName_last _)).1
  have hplace : ∀ place, LookedUp w.fs (baseName x.path) dirs place → located o.world o.path (baseName x.path) = place := by
    intro place h
    rw [located, hfs, hp, baseName_id _ (baseName_slashless _)]
    exact lookedUp_search _ _ _ _ hlast h
  rw [Agree, ho, file_recorded, file_meas, SameValue, himg]
  simp only [Meas.name, Meas.type, openRead_of w o.world hfs hb]
  constructor
  · rintro ⟨h1, h2, ⟨k, h3⟩, bytes, h4, h5⟩
    have ht : y.kind = .text := by
      revert h3
      cases y.kind with
      | text => intro _; rfl
      | png => intro h; rcases k with _ | _ | (_ | _ | _ | _) <;> exact absurd h (by decide)
      | jpeg => intro h; rcases k with _ | _ | (_ | _ | _ | _) <;> exact absurd h (by decide)
    refine ⟨h1, ?_, ht, ?_⟩
    · rw [ht] at h2
      revert h2
      cases x.kind with
      | text => intro _; rfl
      | png => intro h; exact absurd h (by decide)
      | jpeg => intro h; exact absurd h (by decide)
    · obtain ⟨place, hl⟩ := lookedUp_total w.fs (baseName x.path) dirs
      rw [hplace place hl] at h5
      exact ⟨_, place, bytes, baseName_last _, hl, h5, h4⟩
  · rintro ⟨h1, h2, h3, last, place, bytes, h4, h5, h6, h7⟩
    have := last_baseName _ _ h4
    subst this
    refine ⟨h1, by rw [h2, h3], ⟨.plain, by rw [h3]; rfl⟩, bytes, h7, ?_⟩
    rw [hplace place h5]
    exact h6

theorem failures_files (env : Env) (himg : env.image = none) (w : World) (dirs : List Str) : ∀ (ys xs : List FileItem) (os : List Obs), (∀ x ∈ xs, x.Valid) →
    os.map (·.call) = ys.map FileItem.call → (∀ o ∈ os, o.path = dirs ∧ o.world.fs = w.fs ∧ o.world.bytes = w.bytes) →
    failures env ((xs.map FileItem.call).map recordedMeas) os = otherText w dirs xs ys := by
  intro ys
  induction ys with
  | nil =>
    intro xs os _ ho _
    have : os = [] := by simpa using ho
    subst this
    cases xs <;> simp [otherText, failures]
  | cons y ys ih =>
    intro xs os hx ho hw
    cases os with
    | nil => simp at ho
    | cons o os =>
      simp only [List.map_cons, List.cons.injEq] at ho
      cases xs with
      | nil =>
        have := ih [] os (by simp) ho.2 (fun o h => hw o (by simp [h]))
        simp only [List.map_nil] at this
        simp only [List.map_nil, otherText, failures, this]
      | cons x xs =>
        have := ih xs os (fun z hz => hx z (by simp [hz])) ho.2 (fun o h => hw o (by simp [h]))
        obtain ⟨w1, w2, w3⟩ := hw o (by simp)
        have hag := agree_file env himg w dirs x y (hx x (by simp)) o ho.1 w1 w2 w3
        simp only [List.map_cons, otherText, failures, this]
        by_cases h : SameText w dirs x y
        · rw [if_pos h, if_pos (hag.mpr h)]
        · rw [if_neg h, if_neg fun g => h (hag.mp g)]

theorem calls_keeps (os : Option Str) : ∀ l : List Call, Keeps os (calls l)
  | [] => trivial
  | _ :: l => fun _ => calls_keeps os l

theorem calls_record (env : Env) : ∀ (l : List Call) (s : St), s.obj.is = none → s.obj.inFileName = [] →
    (observed env (calls l) s).map (·.call) = l ∧ (runProg env (calls l) s).2 = .ok 0 ∧ (runProg env (calls l) s).1.world.fs = s.world.fs ∧
    (runProg env (calls l) s).1.obj.is = none ∧ (runProg env (calls l) s).1.obj.inFileName = [] ∧ (runProg env (calls l) s).1.obj.expected = s.obj.expected := by
  intro l
  induction l with
  | nil => intro s h1 h2; exact ⟨rfl, rfl, rfl, h1, h2, rfl⟩
  | cons c l ih =>
    intro s h1 h2
    have hc := runCall_record env s c h1 h2
    have ho := emit_obj s (line (recordedMeas c))
    obtain ⟨a1, a2, a3, a4, a5, a6⟩ := ih (s.emit (line (recordedMeas c))) (by rw [ho, h1]) (by rw [ho, h2])
    have e : calls (c :: l) = .call c fun _ => calls l := rfl
    rw [e]
    simp only [observed, runProg, hc]
    exact ⟨by rw [List.map_cons, a1], a2, by rw [a3, emit_fs], a4, a5, by rw [a6, ho]⟩

/-- **C130.** A test that measures files, chosen by its arguments and by whether it compares, is recorded and later compared with the recording, each time with any options and any further arguments.  The
recording run returns 0.  The comparing run returns 0 if it is told to expect anything but 0; otherwise the number of its measurements that are not those of a text file with the bytes of the file found, in the
directories given by `-P` and then in the search path of the object, by the last component of the name of the text file measured at the same position, under the same name, when recording.  Images never agree. -/
theorem C130_files (X : Expat) (hX : Conforms X) (mem : (Int → Nat) × (Int → Nat)) (steps : Nat) (tol : ℚ) (sp0 sp : List Str) (test : List Str → Bool → List FileItem)
    (prog : Str) (ps : List (Str × Str)) (args : List Str) (fuel : Nat) (w : World) (hw : Comment (commentText w)) (f : Str)
    (hopt : ∀ p ∈ ps, IsOption p.1) (href : ∀ p ∈ ps, ¬ Refused w.fs p) (hstop : Stops args) (hfuel : ps.length < fuel)
    (hI : lastValue b!"-I" ps = none) (hO : lastValue b!"-O" ps = some f) (hf : f ≠ []) (hcreate : w.creatable (cstr f) = true)
    (hnew : w.fs.stat (cstr f) = none ∨ (w.fs.canRead (cstr f) = true ∧ w.fs.canWrite (cstr f) = true))
    (w1 : World) (hw1 : (main (whole X mem steps) (filesTest test) fuel (prog :: (flat ps ++ args)) ⟨{ searchPath := sp0 }, w⟩).1.world = w1)
    (prog' : Str) (ps' : List (Str × Str)) (args' : List Str) (fuel' : Nat) (w2 : World) (name file : Str)
    (hopt' : ∀ p ∈ ps', IsOption p.1) (href' : ∀ p ∈ ps', ¬ Refused w2.fs p) (hstop' : Stops args') (hfuel' : ps'.length < fuel')
    (hI' : lastValue b!"-I" ps' = some name) (hn : name ≠ []) (hO' : lastValue b!"-O" ps' = none)
    (hfile : LookedUp w2.fs name ((values b!"-P" ps').reverse ++ sp) file) (hdoc : w2.openRead file = w1.openRead f)
    (hx : ∀ x ∈ test (prog :: args) false, x.Valid) (hy : ∀ y ∈ test (prog' :: args') true, y.name ≠ []) :
    (main (whole X mem steps) (filesTest test) fuel (prog :: (flat ps ++ args)) ⟨{ searchPath := sp0 }, w⟩).2 = .ok 0 ∧
    (main (whole X mem steps) (filesTest test) fuel' (prog' :: (flat ps' ++ args')) ⟨{ tolerance := tol, searchPath := sp }, w2⟩).2 =
      .ok (if expectation ps' ≠ 0 then 0 else otherText w2 ((values b!"-P" ps').reverse ++ sp) (test (prog :: args) false) (test (prog' :: args') true)) := by
  obtain ⟨xs, hxs⟩ : ∃ xs, xs = test (prog :: args) false := ⟨_, rfl⟩
  obtain ⟨ys, hys⟩ : ∃ ys, ys = test (prog' :: args') true := ⟨_, rfl⟩
  rw [← hxs] at hx ⊢
  rw [← hys] at hy ⊢
  obtain ⟨r1, r2⟩ := record_general_path sp0 (whole X mem steps) (filesTest test) (xs.map FileItem.call) prog ps args fuel w f 0 hopt href hstop hfuel hI hO hf hcreate hnew
    (fun _ => calls_keeps _ _) (by
      intro s h1 h2 _
      have hm : s.settings.compareMode = false := recording s h1 h2
      simp only [filesTest, observed, runProg, hm, ← hxs]
      exact calls_record (whole X mem steps) _ s h1 h2)
  refine ⟨by rw [r1]; split <;> rfl, ?_⟩
  rw [hw1] at r2
  rw [r2] at hdoc
  have hread := read_recording X hX (xs.map FileItem.call) w hw (fun c hc => by
    obtain ⟨x, hx', rfl⟩ := List.mem_map.mp hc
    rw [file_recorded]
    refine ⟨(hx x hx').2.1, ?_, ((hx x hx').2.2 _ (baseName_last _)).2, rfl⟩
    show ∀ c ∈ x.kind.type, AttrChar c
    generalize x.kind = k
    cases k <;> decide)
  rw [show readXML X = (whole X mem steps).readXML from rfl] at hread
  generalize header w ++ _ ++ footer = bytes at hread hdoc
  have hms : ∀ b ∈ (xs.map FileItem.call).map recordedMeas, Plainly b := by
    intro b hb
    obtain ⟨c, hc, rfl⟩ := List.mem_map.mp hb
    exact recorded_plainly _
  obtain ⟨os, ho1, ho2, ho3⟩ := compare_general_path tol sp (whole X mem steps) bytes ((xs.map FileItem.call).map recordedMeas) hread hms
    (filesTest test) (ys.map FileItem.call) prog' ps' args' fuel' w2 name file 0 hopt' href' hstop' hfuel' hI' hn hO' hfile hdoc
    (by
      intro c hc
      obtain ⟨y, hy', rfl⟩ := List.mem_map.mp hc
      rw [file_meas]
      exact hy y hy')
    (fun os => ∀ o ∈ os, o.path = (values b!"-P" ps').reverse ++ sp ∧ o.world.fs = w2.fs ∧ o.world.bytes = w2.bytes)
    (by
      intro s1 h1 h2 h3 h4 h5 h6 h7
      have hm : s1.settings.compareMode = true := compareMode_is h1
      obtain ⟨s2, g1, g2, g3, g6, g4, g5⟩ := files_run (whole X mem steps) rfl ys s1 bytes h1 h7 (by rw [h2]; exact hms) hy
      rw [h5, h6] at g5
      simp only [filesTest, observed, runProg, hm, ← hys]
      exact ⟨s2, g1, g2, g3, g6, g4, g5⟩)
  rw [ho3, failures_files (whole X mem steps) rfl w2 _ ys xs os hx ho1 ho2]
  by_cases he : expectation ps' = 0
  · rw [if_neg (by simp [he]), if_neg (by simp [he])]
  · rw [if_pos (Ne.symm he), if_pos he]

theorem test4_is (env : Env) (argv : List Str) (s : St) : runProg env (test4 argv) s = runProg env (filesTest (fun _ _ => [⟨b!"FileTextPlain", .text, b!"/t/data/plain.txt"⟩]) argv) s := by
  have h : Path.append b!"/t/data" b!"plain.txt" = b!"/t/data/plain.txt" := by decide +kernel
  rw [test4, h]
  rfl

theorem outputTest2_is (env : Env) (argv : List Str) (s : St) : runProg env (outputTest2 argv) s = runProg env (filesTest (fun _ _ => [⟨b!"FileTextPlain", .text, b!"/t/data/plain.txt"⟩,
    ⟨b!"FileImagePNG", .png, b!"/t/data/vm_head_coronal.png"⟩, ⟨b!"FileImageJPEG", .jpeg, b!"/t/data/vm_head_coronal.jpg"⟩]) argv) s := by
  have h1 : Path.append b!"/t/data" b!"plain.txt" = b!"/t/data/plain.txt" := by decide +kernel
  have h2 : Path.append b!"/t/data" b!"vm_head_coronal.png" = b!"/t/data/vm_head_coronal.png" := by decide +kernel
  have h3 : Path.append b!"/t/data" b!"vm_head_coronal.jpg" = b!"/t/data/vm_head_coronal.jpg" := by decide +kernel
  rw [outputTest2, h1, h2, h3]
  rfl

theorem valid_of (x : FileItem) (h1 : x.name ≠ []) (h2 : ∀ c ∈ x.name, AttrChar c) (h3 : baseName x.path ≠ []) (h4 : ∀ c ∈ baseName x.path, Printable c) : x.Valid :=
  ⟨h1, h2, fun last h => by rw [last_baseName _ _ h]; exact ⟨h3, h4⟩⟩

theorem sameText_at (w : World) (dirs : List Str) (place : Str) (h : LookedUp w.fs b!"plain.txt" dirs place) :
    SameText w dirs ⟨b!"FileTextPlain", .text, b!"/t/data/plain.txt"⟩ ⟨b!"FileTextPlain", .text, b!"/t/data/plain.txt"⟩ ↔
      ∃ bytes, w.openRead place = some bytes ∧ w.openRead b!"/t/data/plain.txt" = some bytes := by
  have hb : baseName b!"/t/data/plain.txt" = b!"plain.txt" := by decide +kernel
  constructor
  · rintro ⟨-, -, -, last, place', bytes, h1, h2, h3, h4⟩
    have := last_baseName _ _ h1
    simp only at this
    rw [hb] at this
    subst this
    have e := (lookedUp_search _ _ _ _ (by decide) h).symm.trans (lookedUp_search _ _ _ _ (by decide) h2)
    subst e
    exact ⟨bytes, h3, h4⟩
  · rintro ⟨bytes, h3, h4⟩
    refine ⟨rfl, rfl, rfl, _, place, bytes, baseName_last _, ?_, h3, h4⟩
    rw [hb]
    exact h

open Classical in
/-- **C130.** The project's own test of files (tfRegressionTestTest4), whose object looks in the directory of the data, recorded and compared with the recording, whatever the options and arguments: it returns 0
exactly if 0 is not expected or the file `plain.txt` found in the directories given by `-P`, and last in the directory of the data, can be read and is the one in the directory of the data, byte by byte. -/
theorem C130_test4 (X : Expat) (hX : Conforms X) (mem : (Int → Nat) × (Int → Nat)) (steps : Nat) (tol : ℚ)
    (prog : Str) (ps : List (Str × Str)) (args : List Str) (fuel : Nat) (w : World) (hw : Comment (commentText w)) (f : Str)
    (hopt : ∀ p ∈ ps, IsOption p.1) (href : ∀ p ∈ ps, ¬ Refused w.fs p) (hstop : Stops args) (hfuel : ps.length < fuel)
    (hI : lastValue b!"-I" ps = none) (hO : lastValue b!"-O" ps = some f) (hf : f ≠ []) (hcreate : w.creatable (cstr f) = true)
    (hnew : w.fs.stat (cstr f) = none ∨ (w.fs.canRead (cstr f) = true ∧ w.fs.canWrite (cstr f) = true))
    (w1 : World) (hw1 : (main (whole X mem steps) test4 fuel (prog :: (flat ps ++ args)) ⟨{ searchPath := [b!"/t/data"] }, w⟩).1.world = w1)
    (prog' : Str) (ps' : List (Str × Str)) (args' : List Str) (fuel' : Nat) (w2 : World) (name file : Str)
    (hopt' : ∀ p ∈ ps', IsOption p.1) (href' : ∀ p ∈ ps', ¬ Refused w2.fs p) (hstop' : Stops args') (hfuel' : ps'.length < fuel')
    (hI' : lastValue b!"-I" ps' = some name) (hn : name ≠ []) (hO' : lastValue b!"-O" ps' = none)
    (hfile : LookedUp w2.fs name ((values b!"-P" ps').reverse ++ [b!"/t/data"]) file) (hdoc : w2.openRead file = w1.openRead f)
    (place : Str) (hplace : LookedUp w2.fs b!"plain.txt" ((values b!"-P" ps').reverse ++ [b!"/t/data"]) place) :
    (main (whole X mem steps) test4 fuel (prog :: (flat ps ++ args)) ⟨{ searchPath := [b!"/t/data"] }, w⟩).2 = .ok 0 ∧
    (main (whole X mem steps) test4 fuel' (prog' :: (flat ps' ++ args')) ⟨{ tolerance := tol, searchPath := [b!"/t/data"] }, w2⟩).2 =
      .ok (if expectation ps' ≠ 0 then 0 else if ∃ bytes, w2.openRead place = some bytes ∧ w2.openRead b!"/t/data/plain.txt" = some bytes then 0 else 1) := by
  simp only [main_same _ _ _ (test4_is (whole X mem steps))] at hw1 ⊢
  obtain ⟨g1, g2⟩ := C130_files X hX mem steps tol [b!"/t/data"] [b!"/t/data"] (fun _ _ => [⟨b!"FileTextPlain", .text, b!"/t/data/plain.txt"⟩]) prog ps args fuel w hw f hopt href hstop hfuel hI hO hf hcreate hnew
    w1 hw1 prog' ps' args' fuel' w2 name file hopt' href' hstop' hfuel' hI' hn hO' hfile hdoc
    (by
      intro x hx
      obtain rfl := List.mem_singleton.mp hx
      exact valid_of _ (by decide) (by decide) (by decide +kernel) (by decide +kernel))
    (by
      intro x hx
      obtain rfl := List.mem_singleton.mp hx
      decide)
  refine ⟨g1, ?_⟩
  rw [g2]
  simp only [otherText, sameText_at w2 _ place hplace, Nat.add_zero]
  split
  · rfl
  · split <;> rfl

open Classical in
/-- **C130.** The project's own test of the output of files (tfRegressionTestOutputTest2) fails when it is compared with its own recording, unless anything but 0 is expected: always twice, for the images, and
once more if the file `plain.txt` found in the directories given by `-P` (without them, in the current directory) cannot be read or is not that of the data. -/
theorem C130_outputTest2 (X : Expat) (hX : Conforms X) (mem : (Int → Nat) × (Int → Nat)) (steps : Nat) (tol : ℚ)
    (prog : Str) (ps : List (Str × Str)) (args : List Str) (fuel : Nat) (w : World) (hw : Comment (commentText w)) (f : Str)
    (hopt : ∀ p ∈ ps, IsOption p.1) (href : ∀ p ∈ ps, ¬ Refused w.fs p) (hstop : Stops args) (hfuel : ps.length < fuel)
    (hI : lastValue b!"-I" ps = none) (hO : lastValue b!"-O" ps = some f) (hf : f ≠ []) (hcreate : w.creatable (cstr f) = true)
    (hnew : w.fs.stat (cstr f) = none ∨ (w.fs.canRead (cstr f) = true ∧ w.fs.canWrite (cstr f) = true))
    (w1 : World) (hw1 : (main (whole X mem steps) outputTest2 fuel (prog :: (flat ps ++ args)) ⟨{}, w⟩).1.world = w1)
    (prog' : Str) (ps' : List (Str × Str)) (args' : List Str) (fuel' : Nat) (w2 : World) (name file : Str)
    (hopt' : ∀ p ∈ ps', IsOption p.1) (href' : ∀ p ∈ ps', ¬ Refused w2.fs p) (hstop' : Stops args') (hfuel' : ps'.length < fuel')
    (hI' : lastValue b!"-I" ps' = some name) (hn : name ≠ []) (hO' : lastValue b!"-O" ps' = none)
    (hfile : LookedUp w2.fs name (values b!"-P" ps').reverse file) (hdoc : w2.openRead file = w1.openRead f)
    (place : Str) (hplace : LookedUp w2.fs b!"plain.txt" (values b!"-P" ps').reverse place) :
    (main (whole X mem steps) outputTest2 fuel (prog :: (flat ps ++ args)) ⟨{}, w⟩).2 = .ok 0 ∧
    (main (whole X mem steps) outputTest2 fuel' (prog' :: (flat ps' ++ args')) ⟨{ tolerance := tol }, w2⟩).2 =
      .ok (if expectation ps' ≠ 0 then 0 else if ∃ bytes, w2.openRead place = some bytes ∧ w2.openRead b!"/t/data/plain.txt" = some bytes then 2 else 3) := by
  simp only [main_same _ _ _ (outputTest2_is (whole X mem steps))] at hw1 ⊢
  obtain ⟨g1, g2⟩ := C130_files X hX mem steps tol [] [] (fun _ _ => [⟨b!"FileTextPlain", .text, b!"/t/data/plain.txt"⟩,
      ⟨b!"FileImagePNG", .png, b!"/t/data/vm_head_coronal.png"⟩, ⟨b!"FileImageJPEG", .jpeg, b!"/t/data/vm_head_coronal.jpg"⟩]) prog ps args fuel w hw f hopt href hstop hfuel hI hO hf hcreate hnew
    w1 hw1 prog' ps' args' fuel' w2 name file hopt' href' hstop' hfuel' hI' hn hO' (by simpa using hfile) hdoc
    (by
      intro x hx
      simp only [List.mem_cons, List.not_mem_nil, or_false] at hx
      rcases hx with rfl | rfl | rfl <;> exact valid_of _ (by decide) (by decide) (by decide +kernel) (by decide +kernel))
    (by
      intro x hx
      simp only [List.mem_cons, List.not_mem_nil, or_false] at hx
      rcases hx with rfl | rfl | rfl <;> decide)
  refine ⟨g1, ?_⟩
  rw [g2, List.append_nil]
  have h2 : ¬ SameText w2 (values b!"-P" ps').reverse ⟨b!"FileImagePNG", .png, b!"/t/data/vm_head_coronal.png"⟩ ⟨b!"FileImagePNG", .png, b!"/t/data/vm_head_coronal.png"⟩ := by rintro ⟨-, h, -⟩; cases h
  have h3 : ¬ SameText w2 (values b!"-P" ps').reverse ⟨b!"FileImageJPEG", .jpeg, b!"/t/data/vm_head_coronal.jpg"⟩ ⟨b!"FileImageJPEG", .jpeg, b!"/t/data/vm_head_coronal.jpg"⟩ := by rintro ⟨-, h, -⟩; cases h
  simp only [otherText, sameText_at w2 _ place hplace, if_neg h2, if_neg h3]
  split
  · rfl
  · split <;> rfl

end Verif.Whole
