import Verif.Itk.ImagesSame
import Verif.Itk.DataDirSpec

/-!
# Property C107: where an ITK regression test looks for its baseline and for the recorded images
-/

set_option linter.unusedSimpArgs false

namespace Verif.Itk
open Spec Verif.Path Verif.Path.Spec Verif.Measurement Verif.Measurement.Spec Verif.Regression Verif.Regression.Spec Verif.Xml Verif.Xml.Spec

theorem inDir_append (d name file : Str) (h : InDir d name file) : file = append d name := by
  rcases h with ⟨ha, rfl⟩ | ⟨_, rfl, rfl⟩ | ⟨hn, hd, t, ht, rfl⟩
  · exact ((C19_append d file).1 ha).symm
  · exact ((C19_append [] file).2.1 rfl).symm
  · obtain ⟨u, hu, e⟩ := append_rel hd hn
    rw [e, C19_trimmed_unique d t u ht hu]

theorem append_inDir (d name : Str) : InDir d name (append d name) := by
  by_cases ha : Absolute name
  · exact .inl ⟨ha, (C19_append d name).1 ha⟩
  by_cases hd : d = []
  · exact .inr (.inl ⟨ha, hd, (C19_append d name).2.1 hd⟩)
  · obtain ⟨u, hu, e⟩ := append_rel hd ha
    exact .inr (.inr ⟨ha, hd, u, hu, e⟩)

theorem hasFile_iff (fs : FileSys) (file : Str) : HasFile fs file ↔ isFile fs file = true := by
  simp [HasFile, isFile]

theorem lookedUp_search (fs : FileSys) (name : Str) (dirs : List Str) (file : Str) (hn : name ≠ []) (h : LookedUp fs name dirs file) :
    (if searchPathList fs name dirs = [] then name else searchPathList fs name dirs) = file := by
  have hne : ∀ d, append d name ≠ [] := fun d he => hn (append_empty d name he)
  have key : ∀ (dirs : List Str) (file : Str), LookedUp fs name dirs file → dirs ≠ [] → ∀ acc, Path.searchLoop fs name dirs acc = file ∧ file ≠ [] := by
    intro dirs file h
    induction h with
    | asIs => intro h; exact absurd rfl h
    | here d ds file hw hh =>
      intro _ acc
      have e := inDir_append _ _ _ hw
      subst e
      exact ⟨by simp only [Path.searchLoop, (hasFile_iff _ _).mp hh, if_true], hne d⟩
    | last d file hw =>
      intro _ acc
      have e := inDir_append _ _ _ hw
      subst e
      refine ⟨?_, hne d⟩
      simp only [Path.searchLoop]
      split <;> rfl
    | next d d' ds other file hw hno _ ih =>
      intro _ acc
      have e := inDir_append _ _ _ hw
      subst e
      rw [hasFile_iff] at hno
      rw [Path.searchLoop]
      simp only [if_neg hno]
      exact ih (by simp) _
  by_cases hd : dirs = []
  · subst hd
    cases h
    rfl
  · obtain ⟨h1, h2⟩ := key dirs file h hd []
    rw [show searchPathList fs name dirs = file from h1, if_neg h2]

/-- A file is looked up at exactly one place. -/
theorem C107_one_place (fs : FileSys) (name : Str) (hn : name ≠ []) (dirs : List Str) : ∃ file, LookedUp fs name dirs file ∧ ∀ other, LookedUp fs name dirs other → other = file := by
  refine ⟨if searchPathList fs name dirs = [] then name else searchPathList fs name dirs, ?_, fun other h => (lookedUp_search fs name dirs other hn h).symm⟩
  have hne : ∀ d, append d name ≠ [] := fun d he => hn (append_empty d name he)
  have key : ∀ (ds : List Str) (d acc : Str), LookedUp fs name (d :: ds) (Path.searchLoop fs name (d :: ds) acc) := by
    intro ds
    induction ds with
    | nil =>
      intro d acc
      have : Path.searchLoop fs name [d] acc = append d name := by
        simp only [Path.searchLoop]
        split <;> rfl
      rw [this]
      exact .last d _ (append_inDir d name)
    | cons d' ds ih =>
      intro d acc
      by_cases hf : isFile fs (append d name) = true
      · rw [Path.searchLoop]
        simp only [hf, if_true]
        exact .here d _ _ (append_inDir d name) ((hasFile_iff _ _).mpr hf)
      · rw [Path.searchLoop]
        simp only [if_neg hf]
        exact .next d d' ds _ _ (append_inDir d name) (fun h => hf ((hasFile_iff _ _).mp h)) (ih d' _)
  cases dirs with
  | nil => exact .asIs
  | cons d ds =>
    have := key ds d []
    rw [if_neg]
    · exact this
    · intro he
      obtain ⟨p, _, hp⟩ := (search_mem fs name (d :: ds) []).resolve_left (by simp)
      rw [show Path.searchLoop fs name (d :: ds) [] = [] from he] at hp
      exact hne p hp.symm

/-- **C107.** Which file a run compares with, for every command line of accepted options that gives a baseline and no output: the name given is looked up in the directories
given by `-P`, the last one first, and then in the search path of the object.  If the file found there cannot be read, the test is not run, nothing is written and `Main` returns -1 (unless -1
is the value expected); if it can, the test runs with the measurements in it. -/
theorem C107_baseline_file (env : Env) (test : List Str → Prog) (fuel : Nat) (s : St) (prog : Str) (ps : List (Str × Str)) (rest : List Str)
    (hopt : ∀ p ∈ ps, IsOption p.1) (href : ∀ p ∈ ps, ¬ Refused s.world.fs p) (hstop : Stops rest) (hfuel : ps.length < fuel)
    (name file : Str) (hI : lastValue b!"-I" ps = some name) (hn : name ≠ []) (hO : lastValue b!"-O" ps = none) (hout : s.obj.outFileName = [])
    (hfile : LookedUp s.world.fs name ((values b!"-P" ps).reverse ++ s.obj.searchPath) file) :
    (s.world.openRead file = none → (main env test fuel (prog :: (flat ps ++ rest)) s).1.world = s.world ∧
      ((match lastValue b!"-R" ps with | none => s.obj.expected | some v => strtolInt v) ≠ -1 →
        (main env test fuel (prog :: (flat ps ++ rest)) s).2 = .ok (-1))) ∧
    (∀ bytes ms, s.world.openRead file = some bytes → env.readXML bytes = .ok ms →
      ∃ s1, s1.world = s.world ∧ s1.obj.os = s.obj.os ∧ s1.obj.input = ms ∧ s1.compareMode = true ∧ s1.obj.unmatched = s.obj.unmatched + 1 ∧ s1.obj.inFileName = name ∧
        s1.obj.is = some bytes ∧ s1.obj.searchPath = (values b!"-P" ps).reverse ++ s.obj.searchPath ∧
        s1.obj.expected = (match lastValue b!"-R" ps with | none => s.obj.expected | some v => strtolInt v) ∧ s1.obj.tolerance = s.obj.tolerance ∧ s1.obj.imageTol = s.obj.imageTol ∧
        tryBlock env test fuel (prog :: (flat ps ++ rest)) s =
          match runProg env (test (prog :: rest)) s1 with
          | (s2, .error f) => (s2, -1, some f)
          | (s2, .ok ret) => ({ endMeasurement s2 with obj := { (endMeasurement s2).obj with unmatched := (endMeasurement s2).obj.unmatched - 1 } }, ret, none)) := by
  obtain ⟨o0, ho0⟩ : ∃ o0 : Obj, o0 = { s.obj with unmatched := s.obj.unmatched + 1 } := ⟨_, rfl⟩
  have hp := C35_options_removed s.world.fs fuel o0 prog ps rest hopt href hstop hfuel
  have hlook := lookedUp_search _ _ _ _ hn hfile
  obtain ⟨o, ho⟩ : ∃ o, o = (parseArguments s.world.fs fuel o0 (prog :: (flat ps ++ rest))).1 := ⟨_, rfl⟩
  have hp1 : parseArguments s.world.fs fuel o0 (prog :: (flat ps ++ rest)) = (o, .ok (prog :: rest)) := by rw [ho, hp]
  rw [hp, hI, hO, ho0] at ho
  simp only [hout] at ho
  rw [ho0] at hp1
  clear hp
  rename' hp1 => hp
  have hop : openOutput ⟨o, s.world⟩ = (⟨o, s.world⟩, .ok ()) := by simp [openOutput, ho]
  have hsp : o.inFileName = name ∧ o.searched s.world.fs = searchPathList s.world.fs name ((values b!"-P" ps).reverse ++ s.obj.searchPath) := by
    rw [ho]; exact ⟨rfl, rfl⟩
  constructor
  · intro hnone
    have hin : openInput ⟨o, s.world⟩ = (⟨{ o with is := none }, s.world⟩, .error (.thrown "unable to open input file")) := by
      simp only [openInput, hsp.1, hsp.2, ne_eq, hn, not_false_eq_true, if_true, hlook, hnone]
    have hb : beginMeasurement env ⟨o, s.world⟩ = (⟨{ o with is := none }, s.world⟩, .error (.thrown "unable to open input file")) := by
      simp only [beginMeasurement, hop, Res.andThen, hin]
    have ht : tryBlock env test fuel (prog :: (flat ps ++ rest)) s = (⟨{ o with is := none }, s.world⟩, -1, some (.thrown "unable to open input file")) := by
      simp only [tryBlock, hp, hb]
    obtain ⟨-, h1, h2, -⟩ := C38_exception_value env test fuel _ s _ _ _ ht
    refine ⟨by rw [h1], fun he => h2 ?_⟩
    rw [ho]
    exact he
  · intro bytes ms hsome hxml
    have hin : openInput ⟨o, s.world⟩ = (⟨{ o with is := some bytes }, s.world⟩, .ok ()) := by
      simp only [openInput, hsp.1, hsp.2, ne_eq, hn, not_false_eq_true, if_true, hlook, hsome]
    have hb : beginMeasurement env ⟨o, s.world⟩ = (⟨{ o with is := some bytes, input := ms }, s.world⟩, .ok ()) := by
      simp only [beginMeasurement, hop, Res.andThen, hin, startOrRead, St.compareMode, if_true, hxml]
    refine ⟨⟨{ o with is := some bytes, input := ms }, s.world⟩, rfl, by rw [ho], rfl, rfl, by rw [ho], hsp.1, rfl, by rw [ho], by rw [ho]; rfl, by rw [ho], by rw [ho], ?_⟩
    simp only [tryBlock, hp, hb]
    rfl

/-- **C107.** An object as constructed, with a relative baseline name and no `-P`: the file in the current directory must exist, but it is not the one read; the baseline is the
file of that name in the data directory. -/
theorem C107_relative_baseline (env : Env) (test : List Str → Prog) (fuel : Nat) (hfuel : 1 < fuel) (dataDir t : Str) (hd : Trimmed dataDir t) (w : World) (prog name : Str) (rest : List Str)
    (hstop : Stops rest) (hrel : ¬ Absolute name) (hn : name ≠ []) (hhere : isFile w.fs name = true ∧ isReadable w.fs name = true) :
    (w.openRead (t ++ 47 :: name) = none →
      (main env test fuel (prog :: b!"-I" :: name :: rest) ⟨itkObject dataDir, w⟩).2 = .ok (-1) ∧
      (main env test fuel (prog :: b!"-I" :: name :: rest) ⟨itkObject dataDir, w⟩).1.world = w) ∧
    (∀ bytes ms, w.openRead (t ++ 47 :: name) = some bytes → env.readXML bytes = .ok ms →
      ∃ s1 : St, s1.world = w ∧ s1.obj.input = ms ∧ s1.compareMode = true ∧ s1.obj.unmatched = 1 ∧ s1.obj.inFileName = name ∧ s1.obj.searchPath = [dataDir] ∧
        s1.obj.expected = 0 ∧ s1.obj.imageTol = ⟨0, 0, 0⟩ ∧
        tryBlock env test fuel (prog :: b!"-I" :: name :: rest) ⟨itkObject dataDir, w⟩ =
          match runProg env (test (prog :: rest)) s1 with
          | (s2, .error f) => (s2, -1, some f)
          | (s2, .ok ret) => ({ endMeasurement s2 with obj := { (endMeasurement s2).obj with unmatched := (endMeasurement s2).obj.unmatched - 1 } }, ret, none)) := by
  have hne : dataDir ≠ [] := by
    rintro rfl
    obtain ⟨n, hn, h, -⟩ := hd
    exact h (List.append_eq_nil_iff.mp hn.symm).1
  have h := C107_baseline_file env test fuel ⟨itkObject dataDir, w⟩ prog [(b!"-I", name)] rest (by simp [IsOption]) (by simp [Refused, hhere]) hstop hfuel name (t ++ 47 :: name)
    (by simp [lastValue]) hn (by simp [lastValue]) rfl (by
      rw [show (values b!"-P" [(b!"-I", name)]).reverse ++ (itkObject dataDir).searchPath = [dataDir] by simp [values, itkObject]]
      exact .last _ _ (.inr (.inr ⟨hrel, hne, t, hd, rfl⟩)))
  simp only [flat, List.cons_append, List.nil_append] at h
  have e1 : lastValue b!"-R" [(b!"-I", name)] = none := by simp [lastValue]
  rw [e1] at h
  refine ⟨fun hnone => ?_, fun bytes ms h1 h2 => ?_⟩
  swap
  · obtain ⟨s1, e1, -, e2, e3, e4, e5, e6, e7, e8, e9, e10, e11⟩ := h.2 bytes ms h1 h2
    exact ⟨s1, e1, e2, e3, e4, e5, by rw [e7]; simp [values, itkObject], by rw [e8]; rfl, by rw [e10]; rfl, e11⟩
  obtain ⟨h1, h2⟩ := h.1 hnone
  exact ⟨h2 (show (0 : Int) ≠ -1 by decide), h1⟩

theorem search_absolute (fs : FileSys) (f d : Str) (hf : Absolute f) : searchPathList fs f [d] = f := by
  simp only [searchPathList, Path.searchLoop, (C19_append d f).1 hf]
  split <;> rfl

theorem located_dir (w : World) (d n : Str) (hn : baseName n ≠ []) : located w [d] n = append d (baseName n) := by
  have : searchPathList w.fs (baseName n) [d] = append d (baseName n) := by
    simp only [searchPathList, Path.searchLoop]
    split <;> rfl
  simp only [located, this]
  rw [if_neg (fun he => hn (append_empty d _ he))]

/-- **C107.** The way the tests of ITK are meant to be used.  A test that measures images is recorded, anywhere, with `-O`; the document is put to a place with an absolute name and the
images into the data directory, under the last components of their names.  Then the test run with `-I` and the name of the document, anywhere and with whatever other arguments, returns the number of images that
are not like the image recorded at their position under the same name.  It is assumed that the run does not overwrite these files. -/
theorem C107_kept_in_data_directory (I : Toolkit) (hI : Sound I) (enc : Image → Str) (dec : Str → Option Loaded) (hR : ReadsFiles I dec) (X : Expat) (hX : Conforms X)
    (env : Env) (henv : env.image = some I.imageEnv) (dataDir : Str) (it : ImgTol) (prog f : Str) (more : List Str) (hstop : Stops more) (hprog : ∀ c ∈ prog, Printable c) (hf : f ≠ [])
    (fuel : Nat) (hfuel : 1 < fuel) (w : World) (hw : Comment (commentText w))
    (xs ys : List (Str × Image)) (hxn : xs.length ≤ 4294967296) (hyn : ys.length ≤ 4294967296) (hnames : ∀ x ∈ xs, ∀ c ∈ x.1, AttrChar c)
    (hxs : ∀ x ∈ xs, Survives enc dec x.2) (hys : ∀ y ∈ ys, Survives enc dec y.2) (files : List Str)
    (hfiles : FilesOf ⟨prog :: b!"-O" :: f :: more, 0⟩ xs.length files) (hcreate : w.creatable (cstr f) = true)
    (hnew : w.fs.stat (cstr f) = none ∨ (w.fs.canRead (cstr f) = true ∧ w.fs.canWrite (cstr f) = true))
    (hcr : ∀ g ∈ files, w.creatable g = true ∧ (w.fs.stat g = none ∨ w.fs.canRead g = true)) (hown : cstr f ∉ files) (w1 : World)
    (hw1 : (main (withXML X env) (fun _ => imagesTest enc ⟨prog :: b!"-O" :: f :: more, 0⟩ xs) fuel (prog :: b!"-O" :: f :: more)
      ⟨{ itkObject dataDir with imageTol := it }, w⟩).1.world = w1)
    (prog' f' : Str) (more' : List Str) (hstop' : Stops more') (h0' : 0 ∉ prog') (habs : Absolute f') (files' : List Str)
    (hfiles' : FilesOf ⟨prog' :: b!"-I" :: f' :: more', 0⟩ ys.length files') (w2 : World)
    (hdoc : isFile w2.fs f' = true ∧ isReadable w2.fs f' = true ∧ w2.openRead f' = w1.openRead f)
    (himages : ∀ g ∈ files, ∀ g', InDir dataDir (baseName g) g' → w2.openRead g' = w1.openRead g ∧ cstr g' ∉ files')
    (hcr' : ∀ g ∈ files', w2.creatable g = true ∧ (w2.fs.stat g = none ∨ w2.fs.canRead g = true)) (hown' : cstr f' ∉ files') :
    (main (withXML X env) (fun _ => imagesTest enc ⟨prog :: b!"-O" :: f :: more, 0⟩ xs) fuel (prog :: b!"-O" :: f :: more)
      ⟨{ itkObject dataDir with imageTol := it }, w⟩).2 = .ok 0 ∧
    (main (withXML X env) (fun _ => imagesTest enc ⟨prog' :: b!"-I" :: f' :: more', 0⟩ ys) fuel (prog' :: b!"-I" :: f' :: more')
      ⟨{ itkObject dataDir with imageTol := it }, w2⟩).2 = .ok (unlikeImages I it xs ys) := by
  have h0 : 0 ∉ prog := fun h => absurd (hprog 0 h) (by decide)
  have hobj : ({ itkObject dataDir with imageTol := it } : Obj) = { searchPath := [dataDir], imageTol := it } := rfl
  rw [hobj] at hw1 ⊢
  obtain ⟨s', hmain, r1, r2, r3, himg, -, -⟩ := record_main (withXML X env) enc prog f more hstop h0 hf fuel hfuel w [dataDir] it xs hxn files hfiles hcreate hnew hcr hown
  rw [hmain] at hw1 ⊢
  simp only at hw1
  subst hw1
  refine ⟨rfl, ?_⟩
  obtain ⟨hlen, hat⟩ := files_eq prog _ _ _ _ hfiles
  have hread : (withXML X env).readXML (header w ++ imageLines xs files ++ footer) =
      .ok ((List.zipWith (fun x g => Call.fileITK g x.1) xs files).map recordedMeas) := by
    rw [show (withXML X env).readXML = readXML X from rfl]
    exact read_images X hX w hw prog _ hprog xs hnames files hfiles
  have henv' : (withXML X env).image = some I.imageEnv := henv
  generalize withXML X env = env' at henv' hread ⊢
  obtain ⟨d1, d2, d3⟩ := hdoc
  rw [r3] at d3
  generalize header w ++ imageLines xs files ++ footer = bytes at hread d3
  have hf' : f' ≠ [] := by
    obtain ⟨r, rfl⟩ := habs
    simp
  have hsearch := search_absolute w2.fs f' dataDir habs
  have hq : f' = if searchPathList w2.fs f' [dataDir] = [] then f' else searchPathList w2.fs f' [dataDir] := by
    rw [hsearch]; simp
  generalize hms : (List.zipWith (fun x g => Call.fileITK g x.1) xs files).map recordedMeas = ms at hread
  have hkept : List.Forall₂ (Kept enc w2 [dataDir] files') xs ms := by
    rw [← hms, List.forall₂_iff_get]
    refine ⟨by simp [hlen], ?_⟩
    intro i hi hi'
    have hil : i < files.length := by omega
    have hg := List.getElem_mem hil
    have e := hat i hi
    rw [List.getElem?_eq_getElem hil, Option.some.injEq] at e
    have hbn : baseName files[i] ≠ [] := by
      rw [e, baseName_fileAt]
      simp
    have hm : ((List.zipWith (fun x g => Call.fileITK g x.1) xs files).map recordedMeas).get ⟨i, hi'⟩ =
        .file { type := b!"image/itk", name := xs[i].1, fileName := baseName files[i] } := by
      simp only [List.get_eq_getElem, List.getElem_map, List.getElem_zipWith]
      rfl
    rw [hm, Kept]
    have hbb := baseName_id _ (baseName_slashless files[i])
    obtain ⟨i1, i2⟩ := himages _ hg _ (append_inDir dataDir (baseName files[i]))
    refine Exists.intro { type := b!"image/itk", name := xs[i].1, fileName := baseName files[i] } (And.intro rfl (And.intro rfl (And.intro rfl (And.intro ?_ ?_))))
    · rintro m (⟨h | h, -⟩ | ⟨p, hp, rfl⟩)
      · cases h
      · simp only at h
        rw [hbb] at h
        exact absurd h hbn
      · simp only [List.mem_singleton] at hp
        subst hp
        simp only
        rw [hbb]
        exact i2
    · simp only
      rw [located_dir _ _ _ (by rw [hbb]; exact hbn), hbb, i1]
      exact himg i xs[i] files[i] (by simp [hi]) (by simp [hil])
  exact compare_main I hI enc dec hR env' henv' prog' f' more' hstop' h0' hf' fuel hfuel w2 [dataDir] it xs ys hyn files' hfiles' hcr'
    hown' (by
      intro p hp
      simp only [List.mem_singleton] at hp
      subst hp
      rw [(C19_append p f').1 habs]
      exact hown') ⟨d1, d2⟩ f' bytes hq d1 d2 d3 ms hread hkept hxs hys

/-- **C107, negative.** If a recorded image is not in the data directory, comparing with it ends the test by an exception, whatever the image and even though the recorded file lies in the
current directory: the file recorded is looked for in the data directory only. -/
theorem C107_image_not_in_data_directory (I : Toolkit) (env : Env) (dec : Str → Option Loaded) (hR : ReadsFiles I dec) (henv : env.image = some I.imageEnv) (dataDir : Str)
    (s : St) (hsp : s.obj.searchPath = [dataDir]) (bytes : Str) (his : s.obj.is = some bytes) (f : FileM) (rest : List Meas) (hin : s.obj.input = .file f :: rest)
    (htype : f.type = b!"image/itk") (hbn : baseName f.fileName ≠ []) (file : Str) (hmissing : ∀ g, InDir dataDir (baseName f.fileName) g → s.world.openRead g = none) :
    ∃ m, (runCall env s (.fileITK file f.name)).2 = .error (.thrown m) := by
  rw [runCall, compareMode_is his, if_pos rfl, compareMeasurement]
  simp only [hin]
  rw [if_pos ⟨rfl, by simp [Meas.type, htype, Call.meas]⟩]
  obtain ⟨b', hl, h1, h2, _, hb'⟩ := locate_eq { s with obj := { s.obj with input := rest } } (.file f) (Call.fileITK file f.name).meas
  simp only [Call.meas] at hb'
  subst hb'
  rw [hl]
  simp only [compareVisit, imagePair, henv, Call.meas, if_true, Toolkit.imageEnv]
  have hloc : located s.world s.obj.searchPath f.fileName = append dataDir (baseName f.fileName) := by rw [hsp, located_dir _ _ _ hbn]
  rw [hloc]
  have hnone := hmissing _ (append_inDir dataDir (baseName f.fileName))
  have hread : ∀ c, I.read { s.world with cout := c } (append dataDir (baseName f.fileName)) = none := fun c => by
    rw [hR]
    show (s.world.openRead _).bind dec = none
    rw [hnone]; rfl
  have hcmp : Toolkit.compare I s.world s.obj.imageTol (cstr file) (cstr (append dataDir (baseName f.fileName))) = false := by
    have h : I.read s.world (cstr (append dataDir (baseName f.fileName))) = none := by rw [hR, openRead_cstr, hnone]; rfl
    simp [Toolkit.compare, regressionTestImage, h]
  rw [hcmp]
  refine ⟨"itk::ExceptionObject", ?_⟩
  simp only [Bool.false_eq_true, if_false, differenceMeasurement, imagePair, henv, if_true, St.toCout, Toolkit.imageEnv, Toolkit.differenceText]
  generalize I.read _ file = r
  cases r with
  | none => rfl
  | some lt =>
    simp only [hread]
    rfl

/-- **C107, negative.** So a test that is recorded and compared in the same directory, with objects as constructed, does not pass, unless that is the data directory: whatever images it
measures, with the images recorded beside it, `Main` returns -1 as soon as an image is measured that is recorded at its position. -/
theorem C107_not_beside_the_test (I : Toolkit) (enc : Image → Str) (env : Env) (dec : Str → Option Loaded) (hR : ReadsFiles I dec) (henv : env.image = some I.imageEnv) (dataDir : Str)
    (it : ImgTol) (prog f : Str) (more : List Str) (hstop : Stops more) (h0 : 0 ∉ prog) (habs : Absolute f) (fuel : Nat) (hfuel : 1 < fuel) (w : World)
    (hdoc : isFile w.fs f = true ∧ isReadable w.fs f = true) (bytes : Str) (hopen : w.openRead f = some bytes) (m : FileM) (ms : List Meas) (hread : env.readXML bytes = .ok (.file m :: ms))
    (htype : m.type = b!"image/itk") (hbn : baseName m.fileName ≠ []) (im : Image) (ys : List (Str × Image)) (file : Str)
    (hfile : FilesOf ⟨prog :: b!"-I" :: f :: more, 0⟩ 1 [file]) (hcr : w.creatable file = true)
    (hmissing : ∀ g, InDir dataDir (baseName m.fileName) g → w.openRead g = none ∧ cstr g ≠ file) :
    (main env (fun _ => imagesTest enc ⟨prog :: b!"-I" :: f :: more, 0⟩ ((m.name, im) :: ys)) fuel (prog :: b!"-I" :: f :: more)
      ⟨{ itkObject dataDir with imageTol := it }, w⟩).2 = .ok (-1) := by
  have hne : f ≠ [] := by
    obtain ⟨r, rfl⟩ := habs
    simp
  obtain ⟨-, h⟩ := C107_baseline_file env (fun _ => imagesTest enc ⟨prog :: b!"-I" :: f :: more, 0⟩ ((m.name, im) :: ys)) fuel ⟨{ itkObject dataDir with imageTol := it }, w⟩
    prog [(b!"-I", f)] more (by simp [IsOption]) (by simp [Refused, hdoc]) hstop hfuel f f (by simp [lastValue]) hne (by simp [lastValue]) rfl (by
      rw [show (values b!"-P" [(b!"-I", f)]).reverse ++ ({ itkObject dataDir with imageTol := it } : Obj).searchPath = [dataDir] by simp [values, itkObject]]
      exact .last _ _ (.inl ⟨habs, rfl⟩))
  obtain ⟨s1, e1, -, e2, e3, e4, e5, e6, e7, e8, e9, e10, e11⟩ := h bytes _ hopen hread
  have he8 : s1.obj.expected = 0 := by
    rw [e8, show lastValue b!"-R" [(b!"-I", f)] = none by simp [lastValue]]; rfl
  have he7 : s1.obj.searchPath = [dataDir] := by rw [e7]; simp [values, itkObject]
  obtain ⟨hlen, hat⟩ := files_eq prog _ _ _ _ hfile
  have hf1 := hat 0 (by decide)
  simp only [List.getElem?_cons_zero, Option.some.injEq] at hf1
  have hnul := fileAt_nul prog (b!"-I" :: f :: more) (0 + 1) h0
  have hfe : file = fileAt prog (b!"-I" :: f :: more) (0 + 1) := hf1
  rw [← hfe] at hnul
  have hfile0 : 0 ∉ file := by
    rw [← hnul]; simp only [cstr]
    intro h
    have := List.all_takeWhile (p := fun x : UInt8 => decide (x ≠ 0)) (l := file)
    rw [List.all_eq_true] at this
    simpa using this 0 h
  obtain ⟨s2, hs2⟩ : ∃ s2 : St, s2 = { s1 with world := saveImage enc s1.world file im } := ⟨_, rfl⟩
  have hcall := C107_image_not_in_data_directory I env dec hR henv dataDir s2 (by rw [hs2]; exact he7) bytes (by rw [hs2]; exact e6) m ms (by rw [hs2]; exact e2) htype hbn file (by
    intro g hg
    obtain ⟨g1, g2⟩ := hmissing g hg
    have hw2 : s2.world = saveImage enc w file im := by rw [hs2, e1]
    obtain ⟨q1, q2, q3⟩ := same_save enc w file im hfile0 hcr (cstr g) g2
    rw [hw2, World.openRead, q1, q2, q3]
    exact g1)
  obtain ⟨msg, hcall⟩ := hcall
  have hfr := frame_call env s2 (.fileITK file m.name)
  rcases hr : runCall env s2 (.fileITK file m.name) with ⟨s3, r⟩
  rw [hr] at hcall hfr
  simp only at hcall hfr
  subst hcall
  have hrun : runProg env (imagesTest enc ⟨prog :: b!"-I" :: f :: more, 0⟩ ((m.name, im) :: ys)) s1 = (s3, .error (.thrown msg)) := by
    rw [imagesTest, run_image, ← hfe, hnul, e1, if_pos hcr, ← e1, ← hs2, hr]
  simp only [flat, List.cons_append, List.nil_append, hrun] at e11
  obtain ⟨-, -, h2, -⟩ := C38_exception_value env _ fuel _ _ _ _ _ e11
  refine h2 ?_
  obtain ⟨⟨u, i, ho⟩, -⟩ := hfr
  rw [ho, hs2]
  show s1.obj.expected ≠ -1
  rw [he8]; decide

end Verif.Itk
