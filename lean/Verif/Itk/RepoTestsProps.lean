import Verif.Itk.RepoTestsSpec
import Verif.Itk.ProgramProps
import Verif.Itk.IeeeRun

/-!
# Property C113: the project's tests of image measurements
-/

set_option linter.unusedSimpArgs false

namespace Verif.Itk
open Spec Verif.Path Verif.Path.Spec Verif.Measurement Verif.Measurement.Spec Verif.Regression Verif.Regression.Spec Verif.Xml Verif.Xml.Spec

/-- What a test does in a comparing run, the file `name` being left alone. -/
def DoesBut (env : Env) (p : Prog) (s : St) (name : Str) : Option Nat → Prop
  | some n => ∃ s', runProg env p s = (s', .ok 0) ∧ s'.obj.unmatched = s.obj.unmatched + n ∧ (∃ u i t, s'.obj = { s.obj with unmatched := u, input := i, imageTol := t }) ∧
      s'.world.fs.stat (cstr name) = s.world.fs.stat (cstr name) ∧ (s.world.fs.canRead (cstr name) = true → s'.world.fs.canRead (cstr name) = true)
  | none => ∃ s' m, runProg env p s = (s', .error (.thrown m)) ∧ ∃ u i t, s'.obj = { s.obj with unmatched := u, input := i, imageTol := t }

/-- The state in which the test is called: an object as constructed, comparing with `bs`. -/
structure Ready (dataDir bytes name : Str) (bs : List Meas) (w : World) (s : St) : Prop where
  world : s.world = w
  os : s.obj.os = none
  is : s.obj.is = some bytes
  input : s.obj.input = bs
  searchPath : s.obj.searchPath = [dataDir]
  imageTol : s.obj.imageTol = ⟨0, 0, 0⟩
  inFileName : s.obj.inFileName = name

theorem lookedUp_abs (fs : FileSys) (dataDir name : Str) (h : Absolute name) : LookedUp fs name [dataDir] name := .last _ _ (.inl ⟨h, rfl⟩)

/-- A test called with the absolute name of a baseline, by an object as constructed. -/
theorem run_compared (env : Env) (test : List Str → Prog) (fuel : Nat) (hfuel : 1 < fuel) (dataDir : Str) (w : World) (prog name bytes : Str) (rest : List Str) (hstop : Stops rest)
    (habs : Absolute name) (hopen : w.openRead name = some bytes) (bs : List Meas) (hxml : env.readXML bytes = .ok bs) (r : Option Nat)
    (h : ∀ s, Ready dataDir bytes name bs w s → DoesBut env (test (prog :: rest)) s name r) :
    (main env test fuel (prog :: b!"-I" :: name :: rest) ⟨itkObject dataDir, w⟩).2 = .ok (match r with | some n => (n : Int) | none => -1) := by
  have hne : name ≠ [] := by
    rintro rfl
    simp [Absolute] at habs
  have hreg : w.fs.stat (cstr name) = some .regular ∧ w.fs.canRead (cstr name) = true := by
    simp only [World.openRead] at hopen
    split at hopen
    · assumption
    · cases hopen
  have hlk := lookedUp_abs w.fs dataDir name habs
  obtain ⟨s1, e1, e0, e2, e3, e4, e5, e6, e7, e8, e9, e10, e11⟩ := (C107_baseline_file env test fuel ⟨itkObject dataDir, w⟩ prog [(b!"-I", name)] rest (by simp [IsOption])
    (by simp [Refused, isFile, isReadable, isDirectory, hreg]) hstop (by simpa using hfuel) name name (by simp [lastValue]) hne (by simp [lastValue]) rfl
    (by simpa [itkObject, values] using hlk)).2 bytes bs hopen hxml
  have he7 : s1.obj.searchPath = [dataDir] := by rw [e7]; simp [itkObject, values]
  have he8 : s1.obj.expected = 0 := by rw [e8]; simp [lastValue, itkObject]
  have hr : Ready dataDir bytes name bs w s1 := ⟨e1, by rw [e0]; rfl, e6, e2, he7, by rw [e10]; rfl, e5⟩
  have hd := h s1 hr
  simp only [flat, List.cons_append, List.nil_append] at e11
  cases r with
  | none =>
    obtain ⟨s', m, hrun, u, i, t, ho'⟩ := hd
    rw [hrun] at e11
    refine (C38_exception_value env test fuel _ _ _ _ _ e11).2.2.1 ?_
    rw [ho']
    show s1.obj.expected ≠ -1
    rw [he8]; decide
  | some n =>
    obtain ⟨s', hrun, hu, ⟨u, i, t, ho'⟩, hst, hcr⟩ := hd
    rw [hrun] at e11
    have hcm : s'.compareMode = true := compareMode_is (b := bytes) (by rw [ho']; exact e6)
    rw [e1] at hst hcr
    have hpres : baselinePresent { s'.obj with input := [], os := none, is := none, unmatched := s'.obj.unmatched - 1 } s'.world.fs := by
      have h1 : s'.obj.inFileName = name ∧ s'.obj.searchPath = [dataDir] := by rw [ho']; exact ⟨e5, he7⟩
      refine ⟨by rw [h1.1]; exact hne, ?_⟩
      simp only
      rw [h1.1, h1.2, lookedUp_search _ _ _ _ hne (lookedUp_abs s'.world.fs dataDir name habs)]
      simp [isFile, isReadable, isDirectory, hst, hreg, hcr hreg.2]
    have hcm2 : St.compareMode ⟨{ s'.obj with input := [], os := none, is := none, unmatched := s'.obj.unmatched - 1 }, s'.world⟩ = true :=
      (compareMode_noStream _ rfl).mpr hpres
    have hexp : s'.obj.expected = 0 := by rw [ho']; exact he8
    simp only [main, e11, mainValue, endMeasurement, hcm, if_true]
    rw [if_neg (by simp [hexp]), if_pos hcm2, hu, e4]
    simp only [itkObject]
    congr 1
    omega

theorem near_call' (env : Env) (s : St) (c : Call) (hos : s.obj.os = none) : Near s (runCall env s c).1 := near_call env s s.obj.imageTol c hos

/-- A row of files, in a comparing run. -/
theorem row_compared (I : Toolkit) (hI : Sound I) (env : Env) (dec : Str → Option Loaded) (hR : ReadsFiles I dec) (henv : env.image = some I.imageEnv) (w : World) (dataDir bytes : Str) :
    ∀ (l : List (Str × Str)) (bs : List Meas) (pairs : List (Image × Image)), Compared I w dataDir bs l pairs → ∀ s : St, s.obj.is = some bytes → s.obj.os = none → s.obj.input = bs →
      s.obj.searchPath = [dataDir] → s.obj.imageTol = ⟨0, 0, 0⟩ → s.world.fs = w.fs → s.world.bytes = w.bytes →
      ∃ s', runProg env (measureFiles l) s = (s', .ok 0) ∧ s'.obj.unmatched = s.obj.unmatched + unlikePairs I ⟨0, 0, 0⟩ pairs ∧ Near s s' := by
  intro l
  induction l with
  | nil =>
    intro bs pairs h s _ _ _ _ _ _ _
    obtain rfl : pairs = [] := by cases bs <;> exact h
    exact ⟨s, by rw [measureFiles, runProg], by simp [unlikePairs], ⟨⟨_, _, _, rfl⟩, rfl, rfl⟩⟩
  | cons nf l ih =>
    obtain ⟨name, file⟩ := nf
    intro bs pairs h s his hos hin hsp htol hfs hby
    match bs, pairs, h, hin with
    | b :: bs, (valid, test) :: pairs, h, hin =>
      obtain ⟨⟨place, v, x, ⟨f, last, rfl, f1, f2, f3, hne, hd⟩, hv, rfl, hx, rfl⟩, hrest⟩ := h
      have hopen : ∀ n, s.world.openRead n = w.openRead n := fun n => by simp only [World.openRead, hfs, hby]
      have hloc : located s.world s.obj.searchPath f.fileName = place := by
        rw [hsp]
        exact located_lookedUp s.world [dataDir] (by simp) f.fileName last place f3 hne (.last _ _ hd)
      obtain ⟨s1, v1, hc, h2, h3⟩ := image_call I hI dec hR env henv s bytes his file name f bs hin f2 x v (by rw [hopen, ← hR]; exact hx) (by rw [hloc, hopen, ← hR]; exact hv)
      have hnear := near_call' env s (.fileITK file name) hos
      rw [hc] at hnear
      have hf := frame_call env s (.fileITK file name)
      rw [hc] at hf
      obtain ⟨⟨u, i, ho⟩, -⟩ := hf
      obtain ⟨s', e1, e2, e3⟩ := ih bs pairs hrest s1 (by rw [ho]; exact his) (by rw [ho]; exact hos) h2 (by rw [ho]; exact hsp) (by rw [ho]; exact htol) (by rw [hnear.world.1, hfs])
        (by rw [hnear.world.2, hby])
      refine ⟨s', ?_, ?_, hnear.trans e3⟩
      · rw [measureFiles]
        simp only [runProg, hc]
        exact e1
      · rw [e2, h3, htol]
        by_cases hal : Alike I ⟨0, 0, 0⟩ v.image x.image
        · simp [unlikePairs, hal, f1]
        · simp [unlikePairs, hal, f1]
          ring

theorem doesBut_near (env : Env) (p : Prog) (s s' : St) (name : Str) (n : Nat) (h : runProg env p s = (s', .ok 0)) (hu : s'.obj.unmatched = s.obj.unmatched + n) (hn : Near s s') :
    DoesBut env p s name (some n) :=
  ⟨s', h, hu, hn.obj, by rw [hn.world.1], by rw [hn.world.1]; exact id⟩

/-- C113: a test that measures files returns the number of those that are not like the images recorded for them. -/
theorem C113_rows (I : Toolkit) (hI : Sound I) (env : Env) (dec : Str → Option Loaded) (hR : ReadsFiles I dec) (henv : env.image = some I.imageEnv) (fuel : Nat) (hfuel : 1 < fuel)
    (w : World) (dataDir prog name bytes : Str) (habs : Absolute name) (hopen : w.openRead name = some bytes) (bs : List Meas) (hxml : env.readXML bytes = .ok bs)
    (l : List (Str × Str)) (pairs : List (Image × Image)) (h : Compared I w dataDir bs l pairs) :
    (main env (fun _ => measureFiles l) fuel [prog, b!"-I", name] ⟨itkObject dataDir, w⟩).2 = .ok (unlikePairs I ⟨0, 0, 0⟩ pairs : Nat) := by
  refine run_compared env (fun _ => measureFiles l) fuel hfuel dataDir w prog name bytes [] (by simp [Stops]) habs hopen bs hxml (some _) ?_
  intro s hs
  obtain ⟨s', h1, h2, h3⟩ := row_compared I hI env dec hR henv w dataDir bytes l bs pairs h s hs.is hs.os hs.input hs.searchPath hs.imageTol (by rw [hs.world]) (by rw [hs.world])
  exact doesBut_near env _ s s' name _ h1 h2 h3

/-! ## Images that are alike -/

theorem differVec_self : ∀ l : List Dbl, (∀ d ∈ l, d ≠ none) → differVec l l = false
  | [], _ => rfl
  | d :: l, h => by
    rw [differVec, differVec_self l fun d hd => h d (by simp [hd])]
    cases d with
    | none => exact absurd rfl (h none (by simp))
    | some a => simp [Dbl.eq]

theorem alike_of (I : Toolkit) (t : ImgTol) (valid test : Image) (hs : valid.region.size = test.region.size) (hsp : valid.spacing = test.spacing) (hg : Geometry valid)
    (h : ∀ p, Inside valid.region p → ¬ Spec.Differs I.arith t.intensity t.radius valid test p) : Alike I t valid test := by
  refine ⟨hs, by rw [← hsp]; exact differVec_self _ hg.1, differVec_self _ hg.2, ?_⟩
  rw [count, List.filter_eq_nil_iff.mpr]
  · simp
  · intro p hp
    simpa using h p ((mem_pixels _ _).mp hp)

theorem alike_self (I : Toolkit) (hz : I.arith.rnd 0 = 0) (n r : Nat) (x : Image) (hg : Geometry x) : Alike I ⟨0, n, r⟩ x x := by
  refine alike_of I _ x x rfl rfl hg fun p hp hd => ?_
  cases hc : x.pixel p with
  | none => exact hd.1 (.inl hc)
  | some c => exact hd.2 ⟨p, c, c, hp, near_self r p, hc, hc, by simp [hz]⟩

theorem entry_at (dataDir name file place : Str) (h : InDir dataDir file place) (hf : 47 ∉ file) (hne : file ≠ []) : RecordedAt dataDir (insightEntry name file) name place :=
  ⟨_, file, rfl, rfl, rfl, ⟨hf, .inl rfl⟩, hne, h⟩

/-- C113: itktfMeasurementFileImageInsightTest1 with the baseline of the repository passes whatever the two images are: each of them is compared with itself. -/
theorem C113_test1 (I : Toolkit) (hI : Sound I) (hz : I.arith.rnd 0 = 0) (env : Env) (dec : Str → Option Loaded) (hR : ReadsFiles I dec) (henv : env.image = some I.imageEnv) (fuel : Nat)
    (hfuel : 1 < fuel) (w : World) (dataDir prog name bytes : Str) (habs : Absolute name) (hopen : w.openRead name = some bytes)
    (hxml : env.readXML bytes = .ok [insightEntry b!"Insight PNG Image" b!"vm_head_coronal.png", insightEntry b!"Insight JPEG Image" b!"vm_head_coronal.jpg"])
    (png jpg : Str) (hpng : InDir dataDir b!"vm_head_coronal.png" png) (hjpg : InDir dataDir b!"vm_head_coronal.jpg" jpg)
    (x y : Loaded) (hx : I.read w png = some x) (hy : I.read w jpg = some y) (gx : Geometry x.image) (gy : Geometry y.image) :
    (main env (repoTest1 dataDir) fuel [prog, b!"-I", name] ⟨itkObject dataDir, w⟩).2 = .ok 0 := by
  have e1 := inDir_append _ _ _ hpng
  have e2 := inDir_append _ _ _ hjpg
  have h := C113_rows I hI env dec hR henv fuel hfuel w dataDir prog name bytes habs hopen _ hxml [(b!"Insight PNG Image", png), (b!"Insight JPEG Image", jpg)]
    [(x.image, x.image), (y.image, y.image)]
    ⟨⟨png, x, x, entry_at _ _ _ _ hpng (by decide) (by decide), hx, rfl, hx, rfl⟩, ⟨jpg, y, y, entry_at _ _ _ _ hjpg (by decide) (by decide), hy, rfl, hy, rfl⟩, rfl⟩
  have ht : repoTest1 dataDir = fun _ => measureFiles [(b!"Insight PNG Image", png), (b!"Insight JPEG Image", jpg)] := by
    funext _
    rw [repoTest1, e1, e2]
  rw [ht, h]
  simp [unlikePairs, alike_self I hz 0 0 x.image gx, alike_self I hz 0 0 y.image gy]

/-- C113: itktfMeasurementFileImageInsightTest2 with the baseline of the repository passes exactly if both pairs of images it compares differ. -/
theorem C113_test2 (I : Toolkit) (hI : Sound I) (env : Env) (dec : Str → Option Loaded) (hR : ReadsFiles I dec) (henv : env.image = some I.imageEnv) (fuel : Nat)
    (hfuel : 1 < fuel) (w : World) (dataDir prog name bytes : Str) (habs : Absolute name) (hopen : w.openRead name = some bytes)
    (hxml : env.readXML bytes = .ok [insightEntry b!"Different Images PNG" b!"vm_head_coronal_diff.png", insightEntry b!"Different Images PNG to JPEG" b!"vm_head_coronal.png"])
    (diff png jpg : Str) (hdiff : InDir dataDir b!"vm_head_coronal_diff.png" diff) (hpng : InDir dataDir b!"vm_head_coronal.png" png) (hjpg : InDir dataDir b!"vm_head_coronal.jpg" jpg)
    (d x y : Loaded) (hd : I.read w diff = some d) (hx : I.read w png = some x) (hy : I.read w jpg = some y) :
    ∃ ret, (main env (repoTest2 dataDir) fuel [prog, b!"-I", name] ⟨itkObject dataDir, w⟩).2 = .ok ret ∧
      (repoTest2Status ret = 0 ↔ ¬ Alike I ⟨0, 0, 0⟩ d.image x.image ∧ ¬ Alike I ⟨0, 0, 0⟩ x.image y.image) := by
  have e2 := inDir_append _ _ _ hpng
  have e3 := inDir_append _ _ _ hjpg
  refine ⟨_, run_compared env (repoTest2 dataDir) fuel hfuel dataDir w prog name bytes [] (by simp [Stops]) habs hopen _ hxml
    (some (unlikePairs I ⟨0, 0, 0⟩ [(d.image, x.image), (x.image, y.image)])) ?_, ?_⟩
  · intro s hs
    obtain ⟨s', h1, h2, h3⟩ := row_compared I hI env dec hR henv w dataDir bytes [(b!"Different Images PNG", png), (b!"Different Images PNG to JPEG", jpg)]
      [insightEntry b!"Different Images PNG" b!"vm_head_coronal_diff.png", insightEntry b!"Different Images PNG to JPEG" b!"vm_head_coronal.png"]
      [(d.image, x.image), (x.image, y.image)]
      ⟨⟨diff, d, x, entry_at _ _ _ _ hdiff (by decide) (by decide), hd, rfl, hx, rfl⟩, ⟨png, x, y, entry_at _ _ _ _ hpng (by decide) (by decide), hx, rfl, hy, rfl⟩, rfl⟩
      s hs.is hs.os hs.input hs.searchPath hs.imageTol (by rw [hs.world]) (by rw [hs.world])
    refine doesBut_near env _ s s' name _ ?_ h2 h3
    rw [repoTest2, runProg, if_pos (show s.settings.compareMode = true from compareMode_is hs.is), ← e2, ← e3]
    exact h1
  · by_cases a : Alike I ⟨0, 0, 0⟩ d.image x.image <;> by_cases b : Alike I ⟨0, 0, 0⟩ x.image y.image <;> simp [unlikePairs, repoTest2Status, a, b]

/-! ## Images that are made, written and measured -/

/-- A test that makes an image, called by an object that is comparing. -/
theorem filter_does (I : Toolkit) (hI : Sound I) (env : Env) (enc : Image → Str) (dec : Str → Option Loaded) (hR : ReadsFiles I dec) (henv : env.image = some I.imageEnv)
    (w : World) (dataDir bytes base : Str) (b : Meas) (bs : List Meas) (s : St) (hs : Ready dataDir bytes base (b :: bs) w s) (f : Image → Image) (t : ImgTol) (input output name place : Str)
    (x v : Loaded) (hx : I.read w input = some x) (hcr : w.creatable (cstr output) = true) (hread : w.fs.stat (cstr output) = none ∨ w.fs.canRead (cstr output) = true)
    (hsv : Survives enc dec (f x.image)) (hrec : RecordedAt dataDir b name place) (hv : I.read w place = some v) (hn1 : cstr output ≠ cstr place) (hn2 : cstr output ≠ cstr base) (n : Nat)
    (hn : (n = 0 ∧ Alike I t v.image (f x.image)) ∨ (n = 1 ∧ ¬ Alike I t v.image (f x.image))) :
    DoesBut env (filterTest I enc f t input output name) s base (some n) := by
  obtain ⟨l, hl, hli⟩ := hsv
  obtain ⟨g, last, rfl, g1, g2, g3, g4, g5⟩ := hrec
  obtain ⟨cr, hw, hc⟩ := save_eq enc w output (f x.image) hcr
  obtain ⟨s2, hs2⟩ : ∃ s2 : St, s2 = ⟨{ s.obj with imageTol := t }, saveImage enc w output (f x.image)⟩ := ⟨_, rfl⟩
  have hloc : located s2.world s2.obj.searchPath g.fileName = place := by
    rw [hs2]
    show located _ s.obj.searchPath _ = place
    rw [hs.searchPath]
    exact located_lookedUp _ [dataDir] (by simp) _ _ _ g3 g4 (.last _ _ g5)
  have ho : s2.world.openRead output = some (enc (f x.image)) := by
    have : cr (cstr output) = true := (hc _).mpr (hread.imp (fun h => ⟨rfl, h⟩) id)
    rw [hs2]
    simp [World.openRead, hw, this]
  have hp : s2.world.openRead place = w.openRead place := by
    have : cr (cstr place) = w.fs.canRead (cstr place) := by
      rw [Bool.eq_iff_iff, hc]
      simp [Ne.symm hn1]
    rw [hs2]
    simp [World.openRead, hw, Ne.symm hn1, this]
  obtain ⟨s3, r, h1, h2, h3⟩ := image_call I hI dec hR env henv s2 bytes (by rw [hs2]; exact hs.is) output name g bs (by rw [hs2]; exact hs.input) g2 l v
    (by rw [ho]; exact hl) (by rw [hloc, hp, ← hR]; exact hv)
  have hnear := near_call' env s2 (.fileITK output name) (by rw [hs2]; exact hs.os)
  rw [h1] at hnear
  obtain ⟨⟨u, i, t', ho3⟩, n1, n2⟩ := hnear
  refine ⟨s3, ?_, ?_, ⟨u, i, t', by rw [ho3, hs2]⟩, ?_, ?_⟩
  · rw [filterTest, runProg, hs.world]
    simp only [hx, if_pos hcr, runProg, hs.world]
    rw [← hs2, h1]
  · rw [h3, hli, hs2]
    rcases hn with ⟨rfl, ha⟩ | ⟨rfl, ha⟩
    · rw [if_pos ⟨g1, ha⟩]; rfl
    · rw [if_neg fun h => ha h.2]; rfl
  · rw [n1, hs2, hs.world, hw]
    simp [Ne.symm hn2]
  · rw [n1, hs2, hs.world, hw]
    exact fun h => (hc _).mpr (.inr h)

/-- A test that cannot read its input or write its output. -/
theorem filter_fails (I : Toolkit) (env : Env) (enc : Image → Str) (w : World) (dataDir bytes base : Str) (bs : List Meas) (s : St) (hs : Ready dataDir bytes base bs w s)
    (f : Image → Image) (t : ImgTol) (input output name : Str) (h : I.read w input = none ∨ w.creatable (cstr output) ≠ true) :
    DoesBut env (filterTest I enc f t input output name) s base none := by
  refine ⟨s, "itk::ExceptionObject", ?_, s.obj.unmatched, s.obj.input, s.obj.imageTol, rfl⟩
  rw [filterTest, runProg, hs.world]
  rcases hx : I.read w input with _ | x
  · simp only [runProg]
  · rw [hx] at h
    simp only [if_neg (h.resolve_left (by simp)), runProg]

/-- C113: a test that reads an image, makes another one of it, writes that to a file and measures the file: it returns 0 if what is made is like the recorded image, up to the tolerances,
and 1 if it is not. -/
theorem C113_filter (I : Toolkit) (hI : Sound I) (env : Env) (enc : Image → Str) (dec : Str → Option Loaded) (hR : ReadsFiles I dec) (henv : env.image = some I.imageEnv) (fuel : Nat)
    (hfuel : 1 < fuel) (test : List Str → Prog) (w : World) (dataDir prog base bytes : Str) (rest : List Str) (hstop : Stops rest) (habs : Absolute base) (hopen : w.openRead base = some bytes)
    (b : Meas) (bs : List Meas) (hxml : env.readXML bytes = .ok (b :: bs)) (f : Image → Image) (t : ImgTol) (input output name place : Str)
    (htest : test (prog :: rest) = filterTest I enc f t input output name)
    (x v : Loaded) (hx : I.read w input = some x) (hcr : w.creatable (cstr output) = true) (hread : w.fs.stat (cstr output) = none ∨ w.fs.canRead (cstr output) = true)
    (hsv : Survives enc dec (f x.image)) (hrec : RecordedAt dataDir b name place) (hv : I.read w place = some v) (hn1 : cstr output ≠ cstr place) (hn2 : cstr output ≠ cstr base) :
    (Alike I t v.image (f x.image) → (main env test fuel (prog :: b!"-I" :: base :: rest) ⟨itkObject dataDir, w⟩).2 = .ok 0) ∧
    (¬ Alike I t v.image (f x.image) → (main env test fuel (prog :: b!"-I" :: base :: rest) ⟨itkObject dataDir, w⟩).2 = .ok 1) := by
  refine ⟨fun h => ?_, fun h => ?_⟩
  · exact run_compared env test fuel hfuel dataDir w prog base bytes rest hstop habs hopen _ hxml (some 0) fun s hs => by
      rw [htest]
      exact filter_does I hI env enc dec hR henv w dataDir bytes base b bs s hs f t input output name place x v hx hcr hread hsv hrec hv hn1 hn2 0 (.inl ⟨rfl, h⟩)
  · exact run_compared env test fuel hfuel dataDir w prog base bytes rest hstop habs hopen _ hxml (some 1) fun s hs => by
      rw [htest]
      exact filter_does I hI env enc dec hR henv w dataDir bytes base b bs s hs f t input output name place x v hx hcr hread hsv hrec hv hn1 hn2 1 (.inr ⟨rfl, h⟩)

/-- C113: the test returns -1 if it cannot read its input or write its output, whatever is in the baseline. -/
theorem C113_filter_fails (I : Toolkit) (env : Env) (enc : Image → Str) (fuel : Nat) (hfuel : 1 < fuel) (test : List Str → Prog) (w : World) (dataDir prog base bytes : Str) (rest : List Str)
    (hstop : Stops rest) (habs : Absolute base) (hopen : w.openRead base = some bytes) (bs : List Meas) (hxml : env.readXML bytes = .ok bs) (f : Image → Image) (t : ImgTol)
    (input output name : Str) (htest : test (prog :: rest) = filterTest I enc f t input output name) (h : I.read w input = none ∨ w.creatable (cstr output) ≠ true) :
    (main env test fuel (prog :: b!"-I" :: base :: rest) ⟨itkObject dataDir, w⟩).2 = .ok (-1) :=
  run_compared env test fuel hfuel dataDir w prog base bytes rest hstop habs hopen _ hxml none fun s hs => by
    rw [htest]
    exact filter_fails I env enc w dataDir bytes base bs s hs f t input output name h

/-- C113: itktfMeasurementFileImageInsightTest3 with the baseline of the repository: it passes exactly if the image that is copied is the one in the data directory under the name of the copy. -/
theorem C113_test3 (I : Toolkit) (hI : Sound I) (env : Env) (enc : Image → Str) (dec : Str → Option Loaded) (hR : ReadsFiles I dec) (henv : env.image = some I.imageEnv) (fuel : Nat)
    (hfuel : 1 < fuel) (w : World) (dataDir outputDir prog base bytes : Str) (habs : Absolute base) (hopen : w.openRead base = some bytes)
    (hxml : env.readXML bytes = .ok [insightEntry b!"Pipelined Image" b!"itktfTest3.png"])
    (input output place : Str) (hinput : InDir dataDir b!"vm_head_coronal.png" input) (houtput : InDir outputDir b!"itktfTest3.png" output) (hplace : InDir dataDir b!"itktfTest3.png" place)
    (x v : Loaded) (hx : I.read w input = some x) (hv : I.read w place = some v) (hcr : w.creatable (cstr output) = true)
    (hread : w.fs.stat (cstr output) = none ∨ w.fs.canRead (cstr output) = true) (hsv : Survives enc dec x.image) (hn1 : cstr output ≠ cstr place) (hn2 : cstr output ≠ cstr base) :
    ∃ ret, (main env (repoTest3 I enc dataDir outputDir) fuel [prog, b!"-I", base] ⟨itkObject dataDir, w⟩).2 = .ok ret ∧ (ret = 0 ↔ Alike I ⟨0, 0, 0⟩ v.image x.image) := by
  have e1 := inDir_append _ _ _ hinput
  have e2 := inDir_append _ _ _ houtput
  have h := C113_filter I hI env enc dec hR henv fuel hfuel (repoTest3 I enc dataDir outputDir) w dataDir prog base bytes [] (by simp [Stops]) habs hopen _ [] hxml id ⟨0, 0, 0⟩ input output
    b!"Pipelined Image" place (by rw [repoTest3, e1, e2]) x v hx hcr hread hsv (entry_at _ _ _ _ hplace (by decide) (by decide)) hv hn1 hn2
  by_cases ha : Alike I ⟨0, 0, 0⟩ v.image x.image
  · exact ⟨0, h.1 ha, by simp [ha]⟩
  · exact ⟨1, h.2 ha, by simp [ha]⟩

/-! ## Noise -/

open Verif.Decimal (single double)

theorem nearestSingle_mono {a b : ℚ} (h : a ≤ b) : nearestSingle a ≤ nearestSingle b := by
  rw [nearestSingle, nearestSingle]
  split <;> split
  · rename_i h1 h2
    exact neg_le_neg (single.nearest_mono (by decide) (by rw [abs_of_neg h1, abs_of_neg h2]; linarith))
  · have := single.nearest_nonneg |a|
    have := single.nearest_nonneg |b|
    linarith
  · rename_i h1 h2; exact absurd (lt_of_le_of_lt h h2) h1
  · rename_i h1 h2
    exact single.nearest_mono (by decide) (by rw [abs_of_nonneg (not_lt.mp h1), abs_of_nonneg (not_lt.mp h2)]; exact h)

/-- Multiples of a half below 2^23 are `float`s. -/
theorem nearestSingle_half (k : Int) (h : |k| < 2 ^ 24) : nearestSingle (k / 2) = k / 2 := by
  have key : single.nearest |(k : ℚ) / 2| = |(k : ℚ) / 2| := by
    have := single.nearest_of_representable k.natAbs (-1) (by show k.natAbs < 2 ^ 24; have := abs_lt.mp h; omega) (by decide)
    have e : ((k.natAbs : ℕ) : ℚ) * 2 ^ (-1 : Int) = |(k : ℚ) / 2| := by
      rw [abs_div, Nat.cast_natAbs]
      push_cast
      norm_num
      ring
    rwa [e] at this
  rw [nearestSingle, key]
  split
  · rename_i h1; rw [abs_of_neg h1]; ring
  · rename_i h1; rw [abs_of_nonneg (not_lt.mp h1)]

/-- C113: an image of whole numbers and what it becomes by adding noise of at most a half, in the arithmetic of `float`s, are alike under a tolerance of 1 for the intensity. -/
theorem C113_noise (I : Toolkit) (sqrt) (hA : I.arith = doubles sqrt) (x : Image) (hg : Geometry x) (hw : Whole23 x) (noise : Index → ℚ) (hn : ∀ p, |noise p| ≤ 1 / 2) (n r : Nat) :
    Alike I ⟨1, n, r⟩ x (addNoise noise x) := by
  refine alike_of I _ x (addNoise noise x) rfl rfl hg fun p hp hd => ?_
  rw [hA, differs_iff] at hd
  obtain ⟨c, y, hc, hy, hd⟩ := hd
  obtain ⟨k, hk, hx⟩ := hw p
  rw [hx] at hc
  cases hc
  have hy' : (addNoise noise x).pixel p = some (nearestSingle (k + noise p)) := by simp [addNoise, hx]
  have hfar := hd p _ hp (near_self _ p) hy'
  have hnp := abs_le.mp (hn p)
  have hk' := abs_lt.mp hk
  have lo : ((2 * k - 1 : Int) : ℚ) / 2 ≤ nearestSingle (k + noise p) := by
    rw [← nearestSingle_half (2 * k - 1) (by rw [abs_lt]; omega)]
    apply nearestSingle_mono
    push_cast
    linarith
  have hi : nearestSingle (k + noise p) ≤ ((2 * k + 1 : Int) : ℚ) / 2 := by
    rw [← nearestSingle_half (2 * k + 1) (by rw [abs_lt]; omega)]
    apply nearestSingle_mono
    push_cast
    linarith
  push_cast at lo hi
  have hone : double.nearest 1 = 1 := by decide +kernel
  have hd1 : double.nearest |(k : ℚ) - nearestSingle (k + noise p)| ≤ 1 := by
    rw [← hone]
    refine double.nearest_mono (by decide) ?_
    rw [abs_le]
    constructor <;> linarith
  have h0 := double.nearest_nonneg |(k : ℚ) - nearestSingle (k + noise p)|
  refine absurd hfar (not_lt.mpr (double.nearest_mono (by decide) ?_))
  exact mul_le_mul hd1 hd1 h0 (by norm_num)

/-- C113: itktfMeasurementFileImageInsightTest4 with the baseline of the repository, for images of whole numbers: it passes for every noise. -/
theorem C113_test4 (I : Toolkit) (hI : Sound I) (sqrt) (hA : I.arith = doubles sqrt) (env : Env) (enc : Image → Str) (dec : Str → Option Loaded) (hR : ReadsFiles I dec)
    (henv : env.image = some I.imageEnv) (fuel : Nat) (hfuel : 1 < fuel) (w : World) (dataDir prog base bytes : Str) (habs : Absolute base) (hopen : w.openRead base = some bytes)
    (hxml : env.readXML bytes = .ok [insightEntry b!"Tolerant Image Output" b!"vm_head_coronal.jpg"]) (noise : Index → ℚ) (hn : ∀ p, |noise p| ≤ 1 / 2)
    (input output : Str) (more : List Str) (hstop : ¬ IsOption input) (hinput : InDir dataDir b!"vm_head_coronal.jpg" input)
    (x : Loaded) (hx : I.read w input = some x) (hg : Geometry x.image) (hw : Whole23 x.image) (hcr : w.creatable (cstr output) = true)
    (hread : w.fs.stat (cstr output) = none ∨ w.fs.canRead (cstr output) = true) (hsv : Survives enc dec (addNoise noise x.image)) (hn1 : cstr output ≠ cstr input) (hn2 : cstr output ≠ cstr base) :
    (main env (repoTest4 I enc noise) fuel (prog :: b!"-I" :: base :: input :: output :: more) ⟨itkObject dataDir, w⟩).2 = .ok 0 :=
  (C113_filter I hI env enc dec hR henv fuel hfuel (repoTest4 I enc noise) w dataDir prog base bytes (input :: output :: more) (by simpa [Stops] using hstop) habs hopen _ [] hxml
    (addNoise noise) ⟨1, 0, 0⟩ input output b!"Tolerant Image Output" input rfl x x hx hcr hread hsv (entry_at _ _ _ _ hinput (by decide) (by decide)) hx hn1 hn2).1
    (C113_noise I sqrt hA x.image hg hw noise hn 0 0)

/-- C113: itktfMeasurementFileImageInsightTest4 without the names of two files returns 1, whatever is in the baseline; nothing is read or written by the test. -/
theorem C113_test4_usage (I : Toolkit) (env : Env) (enc : Image → Str) (fuel : Nat) (hfuel : 1 < fuel) (w : World) (dataDir prog base bytes : Str) (rest : List Str) (hstop : Stops rest)
    (habs : Absolute base) (hopen : w.openRead base = some bytes) (bs : List Meas) (hxml : env.readXML bytes = .ok bs) (noise : Index → ℚ) (hfew : rest.length < 2) :
    (main env (repoTest4 I enc noise) fuel (prog :: b!"-I" :: base :: rest) ⟨itkObject dataDir, w⟩).2 = .ok 1 := by
  have hne : base ≠ [] := by
    rintro rfl
    simp [Absolute] at habs
  have hreg : w.fs.stat (cstr base) = some .regular ∧ w.fs.canRead (cstr base) = true := by
    simp only [World.openRead] at hopen
    split at hopen
    · assumption
    · cases hopen
  have hlk := lookedUp_abs w.fs dataDir base habs
  obtain ⟨s1, e1, e0, e2, e3, e4, e5, e6, e7, e8, e9, e10, e11⟩ := (C107_baseline_file env (repoTest4 I enc noise) fuel ⟨itkObject dataDir, w⟩ prog [(b!"-I", base)] rest (by simp [IsOption])
    (by simp [Refused, isFile, isReadable, isDirectory, hreg]) hstop (by simpa using hfuel) base base (by simp [lastValue]) hne (by simp [lastValue]) rfl
    (by simpa [itkObject, values] using hlk)).2 bytes bs hopen hxml
  have he8 : s1.obj.expected = 0 := by rw [e8]; simp [lastValue, itkObject]
  have ht : repoTest4 I enc noise (prog :: rest) = .ret 1 := by
    match rest, hfew with
    | [], _ => rfl
    | [_], _ => rfl
  simp only [flat, List.cons_append, List.nil_append] at e11
  rw [ht, runProg] at e11
  simp only [endMeasurement, compareMode_is e6, if_true] at e11
  simp only [main, e11, mainValue]
  rw [if_pos (by rw [he8]; decide)]

end Verif.Itk
