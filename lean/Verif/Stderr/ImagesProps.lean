import Verif.Stderr.ImagesSpec
import Verif.Stderr.RunProps
import Verif.Itk.InsightProps
import Verif.Itk.ProgramProps
import Verif.Itk.ImagesExample

/-!
# Property C120: what is said about images
-/

set_option linter.unusedSimpArgs false

namespace Verif.Stderr
open Verif.Measurement Verif.Measurement.Spec Verif.Regression Verif.Regression.Spec Verif.Xml Verif.Xml.Spec Verif.Path Verif.Itk Verif.Itk.Spec
open _root_.Verif.Stderr.Spec

theorem runSteps_snd : ∀ l : List Step, (runSteps l).2 = writeAll (l.map (·.2)) := by
  intro l
  induction l with
  | nil => rfl
  | cons x l ih =>
    rcases x with ⟨ms, f | t⟩
    · rfl
    · rw [runSteps, List.map_cons, writeAll, ← ih]

/-- **C120.** Keeping what is said does not change what is written about two images. -/
theorem C120_same_text (I : Toolkit) (C : Complaints) (w : World) (t : ImgTol) (test baseline : FileM) : (differenceRun I C w t test baseline).2 = I.differenceText w t test baseline := by
  have hp : ∀ r ext, (pngStep I C w r test.fileName ext test.name).2 = pngText I r test.fileName ext test.name := by
    intro r ext
    rw [pngStep, pngText]
    cases tail test.fileName <;> rfl
  have hs : ∀ l, (statusSteps l).map (·.2) = l := by intro l; simp [statusSteps]
  rw [differenceRun, Toolkit.differenceText]
  cases I.read w test.fileName with
  | none => rfl
  | some lt =>
    simp only
    cases I.read w baseline.fileName with
    | none => rfl
    | some lb =>
      simp only
      split
      · rw [runSteps_snd, hs]
      · rw [runSteps_snd, List.map_append, hs]
        simp only [List.map_cons, List.map_nil, hp, List.append_assoc, List.cons_append, List.nil_append]

/-- A call for an image that is compared with a file of the same name and type. -/
theorem call_images (I : Toolkit) (C : Complaints) (env : Env) (henv : env.image = some I.imageEnv) (s : St) (bytes : Str) (his : s.obj.is = some bytes) (f : FileM) (rest : List Meas)
    (hin : s.obj.input = .file f :: rest) (htype : f.type = b!"image/itk") (file place : Str) (hloc : located s.world s.obj.searchPath f.fileName = place) :
    ∃ out s', (I.compare s.world s.obj.imageTol (cstr file) (cstr place) = true →
        runCallS env (itkVoice I C) s (.fileITK file f.name) = (comparingSays I C s.world (cstr file) (cstr place), s', .ok 1)) ∧
      (I.compare s.world s.obj.imageTol (cstr file) (cstr place) = false →
        ∃ s'', runCallS env (itkVoice I C) s (.fileITK file f.name) = (comparingSays I C s.world (cstr file) (cstr place) ++
          (differenceRun I C { s.world with cout := out } s.obj.imageTol (FileM.mk b!"image/itk" f.name file true) { f with fileName := place }).1, s'',
          match (I.differenceText { s.world with cout := out } s.obj.imageTol (FileM.mk b!"image/itk" f.name file true) { f with fileName := place }).2 with
          | some e => .error e
          | none => .ok 0)) := by
  obtain ⟨b', hl, h1, h2, _, hb'⟩ := locate_eq { s with obj := { s.obj with input := rest } } (.file f) (Call.fileITK file f.name).meas
  simp only [Call.meas] at hb'
  subst hb'
  rw [runCallS, compareMode_is his, if_pos rfl, compareMeasurementS]
  simp only [hin]
  rw [if_pos ⟨rfl, by simp [Meas.type, htype, Call.meas]⟩, hl]
  simp only [compareVisitS, imagePair, henv, Call.meas, if_true, Toolkit.imageEnv, hloc, itkVoice]
  refine ⟨s.world.cout ++ (b!"Comparing test image: \"" ++ cstr file ++ b!"\" to baseline image: \"" ++ cstr place ++ b!"\"\n"),
    St.toCout { s with obj := { s.obj with input := rest } } (b!"Comparing test image: \"" ++ cstr file ++ b!"\" to baseline image: \"" ++ cstr place ++ b!"\"\n"), ?_, ?_⟩
  · intro h
    rw [h]
    simp only [if_true]
  · intro h
    rw [h]
    simp only [Bool.false_eq_true, if_false, differenceSays, differenceMeasurement, imagePair, henv, if_true, St.toCout, Toolkit.imageEnv]
    rcases I.differenceText _ _ _ _ with ⟨t, _ | e⟩ <;> exact ⟨_, rfl⟩

theorem read_cstr (I : Toolkit) (dec : Str → Option Loaded) (hR : ReadsFiles I dec) (w : World) (n : Str) : I.read w (cstr n) = (w.openRead n).bind dec := by rw [hR, Itk.openRead_cstr]

/-- **C120.** A baseline image that cannot be read: one piece that is not ended, so that what follows is in the same line; and the call ends the test. -/
theorem C120_baseline_unreadable (I : Toolkit) (C : Complaints) (env : Env) (dec : Str → Option Loaded) (hR : ReadsFiles I dec) (henv : env.image = some I.imageEnv) (s : St) (bytes : Str)
    (his : s.obj.is = some bytes) (f : FileM) (rest : List Meas) (hin : s.obj.input = .file f :: rest) (htype : f.type = b!"image/itk") (file place : Str)
    (hloc : located s.world s.obj.searchPath f.fileName = place) (hno : (s.world.openRead place).bind dec = none) :
    (runCallS env (itkVoice I C) s (.fileITK file f.name)).1 = [cannotRead place (C.reading s.world (cstr place))] ∧
      (runCallS env (itkVoice I C) s (.fileITK file f.name)).2.2 = .error (.thrown "itk::ExceptionObject") := by
  obtain ⟨out, s', -, h⟩ := call_images I C env henv s bytes his f rest hin htype file place hloc
  have hp := read_cstr I dec hR s.world place
  rw [hno] at hp
  have hcmp : Toolkit.compare I s.world s.obj.imageTol (cstr file) (cstr place) = false := by simp [Toolkit.compare, regressionTestImage, hp]
  obtain ⟨s'', h⟩ := h hcmp
  have hr : I.read { s.world with cout := out } place = none := by rw [hR]; exact hno
  rw [h, Toolkit.differenceText, comparingSays, hp, differenceRun]
  simp only [hr]
  cases I.read { s.world with cout := out } file <;> exact ⟨rfl, rfl⟩

/-- **C120.** An image of the test that cannot be read, while the one of the baseline can: one line; and the call ends the test. -/
theorem C120_test_unreadable (I : Toolkit) (C : Complaints) (env : Env) (dec : Str → Option Loaded) (hR : ReadsFiles I dec) (henv : env.image = some I.imageEnv) (s : St) (bytes : Str)
    (his : s.obj.is = some bytes) (f : FileM) (rest : List Meas) (hin : s.obj.input = .file f :: rest) (htype : f.type = b!"image/itk") (file place : Str)
    (hloc : located s.world s.obj.searchPath f.fileName = place) (lb : Loaded) (hb : (s.world.openRead place).bind dec = some lb) (hno : (s.world.openRead file).bind dec = none) :
    (runCallS env (itkVoice I C) s (.fileITK file f.name)).1 = [cannotRead file (C.reading s.world (cstr file)) ++ b!"\n"] ∧
      (runCallS env (itkVoice I C) s (.fileITK file f.name)).2.2 = .error (.thrown "itk::ExceptionObject") := by
  obtain ⟨out, s', -, h⟩ := call_images I C env henv s bytes his f rest hin htype file place hloc
  have hp := read_cstr I dec hR s.world place
  have hf := read_cstr I dec hR s.world file
  rw [hb] at hp
  rw [hno] at hf
  have hcmp : Toolkit.compare I s.world s.obj.imageTol (cstr file) (cstr place) = false := by simp [Toolkit.compare, regressionTestImage, hp, hf]
  obtain ⟨s'', h⟩ := h hcmp
  have hr : I.read { s.world with cout := out } file = none := by rw [hR]; exact hno
  rw [h, Toolkit.differenceText, comparingSays, hp, hf, differenceRun]
  simp only [hr]
  exact ⟨rfl, trivial⟩

theorem steps_quiet : ∀ (a : List (Except Fault Str)) (b : List Step), (∀ x ∈ a, ∃ t, x = .ok t) → (runSteps (statusSteps a ++ b)).1 = (runSteps b).1 := by
  intro a b
  induction a with
  | nil => intro _; rfl
  | cons x a ih =>
    intro h
    obtain ⟨t, rfl⟩ := h x (by simp)
    have := ih fun y hy => h y (by simp [hy])
    rw [statusSteps] at this ⊢
    rw [List.map_cons, List.cons_append, runSteps, ← this]
    rfl

theorem status_ok (d : Bool) (k : Measurement.Kind) (a b c e : Str) : ∀ x ∈ statusPair d k a b c e, ∃ t, x = .ok t := by
  have : ∀ n c, ∃ t, statusText k n c = .ok t := by
    intro n c
    obtain ⟨t, ht⟩ := print_ok (Meas.data { kind := k, name := n, content := c })
    exact ⟨_, by rw [statusText, ht]⟩
  intro x hx
  rw [statusPair] at hx
  split at hx
  · simp only [List.mem_cons, List.not_mem_nil, or_false] at hx
    rcases hx with rfl | rfl <;> exact this _ _
  · cases hx

theorem clause_eq (what n : Str) (e : Option (Option Str)) : clause (what ++ b!" of ") n e = aboutException what n e := by
  rcases e with _ | _ | t <;> rfl

theorem png_step (I : Toolkit) (C : Complaints) (w : World) (r : Region) (file ext name : Str) :
    ∃ t, pngStep I C w r file ext name = (aboutPng C w (pngName I.texts.outputDirectory file ext), .ok t) := by
  rw [pngStep, tail_baseName]
  simp only
  rw [imageThing]
  obtain ⟨t, ht⟩ := print_ok (Meas.file { type := b!"image/png", name := b!"Difference " ++ name, fileName := Path.append I.texts.outputDirectory (baseName file ++ ext) })
  rw [ht]
  refine ⟨_, Prod.ext ?_ rfl⟩
  show imageThingSays C w _ = _
  rw [imageThingSays, aboutPng, pngName, ← clause_eq, ← clause_eq]
  rfl

open Classical in
/-- **C120.** Two images that can be read.  If they are the same, if their sizes differ or if the difference cannot be computed, nothing is said; otherwise at most what goes wrong with the three images that
are written for the dashboard is said, in the order of the images. -/
theorem C120_readable (I : Toolkit) (C : Complaints) (hC : Steady C) (env : Env) (dec : Str → Option Loaded) (hR : ReadsFiles I dec) (henv : env.image = some I.imageEnv) (s : St) (bytes : Str)
    (his : s.obj.is = some bytes) (f : FileM) (rest : List Meas) (hin : s.obj.input = .file f :: rest) (htype : f.type = b!"image/itk") (file place : Str)
    (hloc : located s.world s.obj.searchPath f.fileName = place) (lb lt : Loaded) (hb : (s.world.openRead place).bind dec = some lb) (ht : (s.world.openRead file).bind dec = some lt) :
    (runCallS env (itkVoice I C) s (.fileITK file f.name)).1 =
      if I.compare s.world s.obj.imageTol (cstr file) (cstr place) = true ∨ lb.image.region.size ≠ lt.image.region.size ∨
        ¬ ∃ n, filterCount I.arith { threshold := some s.obj.imageTol.intensity, radius := s.obj.imageTol.radius } (I.threads lb.image.region) lb.image lt.image = .ok n then []
      else aboutPng C s.world (pngName I.texts.outputDirectory file b!".diff.png") ++ aboutPng C s.world (pngName I.texts.outputDirectory file b!".base.png") ++
        aboutPng C s.world (pngName I.texts.outputDirectory file b!".test.png") := by
  obtain ⟨out, s', h1, h⟩ := call_images I C env henv s bytes his f rest hin htype file place hloc
  have hp := read_cstr I dec hR s.world place
  have hf := read_cstr I dec hR s.world file
  rw [hb] at hp
  rw [ht] at hf
  have hsay : comparingSays I C s.world (cstr file) (cstr place) = [] := by rw [comparingSays, hp, hf]
  cases hc : I.compare s.world s.obj.imageTol (cstr file) (cstr place) with
  | true => rw [h1 hc, if_pos (Or.inl rfl), hsay]
  | false =>
    obtain ⟨s'', h⟩ := h hc
    have hr1 : I.read { s.world with cout := out } file = some lt := by rw [hR]; exact ht
    have hr2 : I.read { s.world with cout := out } place = some lb := by rw [hR]; exact hb
    rw [h, hsay, differenceRun]
    simp only [hr1, hr2, List.nil_append]
    by_cases hsz : lb.image.region.size = lt.image.region.size
    · rw [if_neg (not_not.mpr hsz)]
      by_cases hn : ∃ n, filterCount I.arith { threshold := some s.obj.imageTol.intensity, radius := s.obj.imageTol.radius } (I.threads lb.image.region) lb.image lt.image = .ok n
      · rw [if_neg (by rintro (h | h | h); cases h; exact h hsz; exact h hn)]
        obtain ⟨n, hn⟩ := hn
        have herr : ∃ t, errorText I s.obj.imageTol lb.image lt.image f.name = .ok t := by
          rw [errorText, hn]
          obtain ⟨t, ht⟩ := print_ok (Meas.data { kind := .num .double, name := b!"ImageError " ++ f.name, content := I.texts.double n })
          exact ⟨t ++ b!"\n", by simp only [statusText]; rw [ht]⟩
        rw [steps_quiet]
        · obtain ⟨t1, e1⟩ := png_step I C { s.world with cout := out } lb.image.region file b!".diff.png" f.name
          obtain ⟨t2, e2⟩ := png_step I C { s.world with cout := out } lb.image.region file b!".base.png" f.name
          obtain ⟨t3, e3⟩ := png_step I C { s.world with cout := out } lt.image.region file b!".test.png" f.name
          have hst : ∀ n, aboutPng C { s.world with cout := out } n = aboutPng C s.world n := by
            intro n
            rw [aboutPng, aboutPng, (hC s.world out n).1, (hC s.world out n).2]
          rw [e1, e2, e3]
          simp only [runSteps, hst, List.append_nil, List.append_assoc]
        · intro x hx
          simp only [List.mem_append, List.mem_cons, List.not_mem_nil, or_false] at hx
          rcases hx with ((((hx | hx) | hx) | hx) | hx) | hx
          iterate 5 exact status_ok _ _ _ _ _ _ x hx
          rw [hx]
          exact herr
      · rw [if_pos (Or.inr (Or.inr hn))]
        have herr : ∃ e, errorText I s.obj.imageTol lb.image lt.image f.name = .error e := by
          rw [errorText]
          rcases hq : filterCount I.arith { threshold := some s.obj.imageTol.intensity, radius := s.obj.imageTol.radius } (I.threads lb.image.region) lb.image lt.image with e | n
          · exact ⟨e, rfl⟩
          · exact absurd ⟨n, hq⟩ hn
        obtain ⟨e, herr⟩ := herr
        rw [herr]
        simp only [statusSteps, List.map_append, List.append_assoc, List.map_cons, List.map_nil, List.cons_append, List.nil_append]
        have key : ∀ (a : List (Except Fault Str)) (b : List Step), (∀ x ∈ a, ∃ t, x = .ok t) → (runSteps (a.map (fun x => (([] : List Str), x)) ++ b)).1 = (runSteps b).1 := steps_quiet
        rw [key _ _ (status_ok _ _ _ _ _ _), key _ _ (status_ok _ _ _ _ _ _), key _ _ (status_ok _ _ _ _ _ _), key _ _ (status_ok _ _ _ _ _ _), key _ _ (status_ok _ _ _ _ _ _)]
        rfl
    · rw [if_pos hsz, if_pos (Or.inr (Or.inl hsz))]
      have := steps_quiet _ [] (status_ok true .string (b!"Baseline Size " ++ f.name) (I.texts.size lb.image.region.size) (b!"Test ImageSize " ++ f.name) (I.texts.size lt.image.region.size))
      rw [List.append_nil] at this
      rw [this]
      rfl

/-- The line about an exception of ITK, which is a `std::exception`. -/
theorem caught_itk (what : Str) : caught ⟨[b!"itk::ExceptionObject", b!"std::exception"], what⟩ = lineAbout b!"std::exception" what := by
  have hp : Possible [b!"itk::ExceptionObject", b!"std::exception"] := by
    intro i c hi hc
    rcases i with _ | _ | i
    · simp only [List.getElem?_cons_zero, Option.some.injEq] at hi
      subst hi
      exact absurd hc (by unfold Standard; decide)
    · simp only [List.getElem?_cons_succ, List.getElem?_cons_zero, Option.some.injEq] at hi
      subst hi
      decide
    · simp at hi
  refine (C112_handler ⟨[b!"itk::ExceptionObject", b!"std::exception"], what⟩ hp).1 b!"std::exception" ⟨[b!"itk::ExceptionObject"], [], rfl, Or.inr rfl, ?_⟩
  intro x hx
  simp only [List.mem_singleton] at hx
  subst hx
  unfold Standard
  decide

/-- **C120.** A run in which an image cannot be read: after what was said before the piece about the image, and the line about the exception, which is the same line if it is the image of the baseline; the
rest of the test is not run. -/
theorem C120_run (X : Expat) (line why : X.State → Str) (I : Toolkit) (C : Complaints) (env : Env) (dec : Str → Option Loaded) (hR : ReadsFiles I dec) (henv : env.image = some I.imageEnv)
    (thrown : Fault → Thrown) (what : Str) (hthrown : thrown (.thrown "itk::ExceptionObject") = ⟨[b!"itk::ExceptionObject", b!"std::exception"], what⟩)
    (test : List Str → Talk) (fuel : Nat) (prog : Str) (ps : List (Str × Str))
    (rest : List Str) (s : St) (hopt : ∀ p ∈ ps, IsOption p.1) (href : ∀ p ∈ ps, ¬ Refused s.world.fs p) (hstop : Stops rest) (hfuel : ps.length < fuel)
    (s1 : St) (hbegin : beginMeasurement (withXML X env) (started s ps) = (s1, .ok ()))
    (bytes : Str) (his : s1.obj.is = some bytes) (f : FileM) (more : List Meas) (hin : s1.obj.input = .file f :: more) (htype : f.type = b!"image/itk") (file place : Str)
    (hloc : located s1.world s1.obj.searchPath f.fileName = place) (k : Int → Talk) (htest : test (prog :: rest) = .call (.fileITK file f.name) k) :
    ((s1.world.openRead place).bind dec = none →
      (mainS X line why env (itkVoice I C) thrown test fuel (prog :: (flat ps ++ rest)) s).1 = outputLines s.world.fs ps ++ baselineLines X line why s1 ++
        [cannotRead place (C.reading s1.world (cstr place)), lineAbout b!"std::exception" what]) ∧
    ((s1.world.openRead place).bind dec ≠ none → (s1.world.openRead file).bind dec = none →
      (mainS X line why env (itkVoice I C) thrown test fuel (prog :: (flat ps ++ rest)) s).1 = outputLines s.world.fs ps ++ baselineLines X line why s1 ++
        [cannotRead file (C.reading s1.world (cstr file)) ++ b!"\n", lineAbout b!"std::exception" what]) := by
  have hrun := (C119_run X line why env (itkVoice I C) thrown test fuel prog ps rest s hopt href hstop hfuel s1 hbegin).1 "itk::ExceptionObject"
  rw [htest, runTalk, hthrown, caught_itk] at hrun
  refine ⟨?_, ?_⟩
  · intro hno
    obtain ⟨a, b⟩ := C120_baseline_unreadable I C (withXML X env) dec hR henv s1 bytes his f more hin htype file place hloc hno
    rcases hx : runCallS (withXML X env) (itkVoice I C) s1 (.fileITK file f.name) with ⟨ms, s2, e | r⟩
    · rw [hx] at a b hrun
      simp only at a b hrun
      rw [hrun b, a]
      simp
    · rw [hx] at b
      cases b
  · intro hb hno
    obtain ⟨lb, hb⟩ := Option.ne_none_iff_exists'.mp hb
    obtain ⟨a, b⟩ := C120_test_unreadable I C (withXML X env) dec hR henv s1 bytes his f more hin htype file place hloc lb hb hno
    rcases hx : runCallS (withXML X env) (itkVoice I C) s1 (.fileITK file f.name) with ⟨ms, s2, e | r⟩
    · rw [hx] at a b hrun
      simp only at a b hrun
      rw [hrun b, a]
      simp
    · rw [hx] at b
      cases b

/-! ## Examples -/

/-- Nothing but "no" is said by the reader, and no image for the dashboard can be written. -/
def grumble : Complaints := ⟨fun _ _ => b!"no", fun _ _ => none, fun _ n => some (if n = b!"out/t.mha.base.png" then none else some b!"full")⟩

/-- A world with a baseline "f" of an image "b.mha" named "i", which is missing. -/
def lostWorld : World :=
  { fs := ⟨fun n => if n = b!"f" then some .regular else none, fun _ => true, fun _ => true, fun _ => true⟩
    bytes := fun _ => header plainWorld ++ (([.fileITK b!"b.mha" b!"i"] : List Call).map fun c => Regression.Spec.line (recordedMeas c)).flatten ++ footer
    creatable := fun _ => true
    cout := [], host := [], time := [] }

/-- The image of the baseline is missing: both exceptions are reported in one line. -/
example : ((mainS reference (fun _ => b!"1") (fun _ => b!"why") { smallEnv [] with image := some rowKit.imageEnv } (itkVoice rowKit grumble)
    (fun _ => ⟨[b!"itk::ExceptionObject", b!"std::exception"], b!"no image"⟩) (fun _ => .call (.fileITK b!"t.mha" b!"i") fun _ => .say b!"never\n" (.ret 0)) 9 [b!"prog", b!"-I", b!"f"]
    ⟨{}, lostWorld⟩).1).flatten = b!"Exception detected while reading b.mha : nostd::exception: \"no image\"\n" := by
  have h := (C120_run reference (fun _ => b!"1") (fun _ => b!"why") rowKit grumble { smallEnv [] with image := some rowKit.imageEnv } readRow (fun _ _ => rfl) rfl
    (fun _ => ⟨[b!"itk::ExceptionObject", b!"std::exception"], b!"no image"⟩) b!"no image" rfl (fun _ => .call (.fileITK b!"t.mha" b!"i") fun _ => .say b!"never\n" (.ret 0)) 9 b!"prog"
    [(b!"-I", b!"f")] [] ⟨{}, lostWorld⟩ (by simp [IsOption]) (by simp only [List.mem_cons, List.not_mem_nil, or_false, forall_eq, Refused]; decide) (by simp [Stops]) (by decide)
    ⟨{ unmatched := 0 + 1, inFileName := b!"f", is := some (lostWorld.bytes []), input := [.file { type := b!"image/itk", name := b!"i", fileName := b!"b.mha" }] }, lostWorld⟩
    (compare_begin (withXML reference { smallEnv [] with image := some rowKit.imageEnv }) 9 (by decide) b!"prog" b!"f" lostWorld (lostWorld.bytes []) (by decide) (by decide) (by decide) rfl
      [.file { type := b!"image/itk", name := b!"i", fileName := b!"b.mha" }] (by decide +kernel)).2.1
    _ rfl { type := b!"image/itk", name := b!"i", fileName := b!"b.mha" } [] rfl rfl b!"t.mha" b!"b.mha" (by decide) _ rfl).1 rfl
  have hq : baselineLines reference (fun _ => b!"1") (fun _ => b!"why")
      ⟨{ unmatched := 0 + 1, inFileName := b!"f", is := some (lostWorld.bytes []), input := [.file { type := b!"image/itk", name := b!"i", fileName := b!"b.mha" }] }, lostWorld⟩ = [] := by decide +kernel
  rw [hq] at h
  have h' := congrArg List.flatten h
  exact h'

/-- Two images of one and two pixels: nothing is said.  Two of the same size that differ: what goes wrong with the images for the dashboard. -/
example : (differenceRun rowKit grumble { lostWorld with bytes := fun n => if n = b!"t.mha" then [1] else [2], fs := ⟨fun _ => some .regular, fun _ => true, fun _ => true, fun _ => true⟩ } {}
    { type := b!"image/itk", name := b!"i", fileName := b!"t.mha" } { type := b!"image/itk", name := b!"i", fileName := b!"b.mha" }).1 = [] := by
  decide +kernel

example : aboutPng grumble lostWorld (pngName b!"out" b!"d/t.mha" b!".diff.png") ++ aboutPng grumble lostWorld (pngName b!"out" b!"d/t.mha" b!".base.png") =
    [b!"Error during exctraction and writing of out/t.mha.diff.png\n", b!"full\n", b!"Error during exctraction and writing of out/t.mha.base.png\n"] := by
  decide +kernel

end Verif.Stderr
