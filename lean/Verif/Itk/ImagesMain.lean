import Verif.Itk.ImagesProps

/-!
# Property C103: recording images and comparing them, from `Main` to `Main`
-/

set_option linter.unusedSimpArgs false

namespace Verif.Itk
open Spec Verif.Path Verif.Measurement Verif.Measurement.Spec Verif.Regression Verif.Regression.Spec Verif.Xml Verif.Xml.Spec

/-- The lines recorded for images: the names, and the last components of the files. -/
def imageLines (xs : List (Str × Image)) (files : List Str) : Str :=
  (List.zipWith (fun x g => line (.file { type := b!"image/itk", name := x.1, fileName := baseName g })) xs files).flatten

/-- A recording run: the document, and the files of the images. -/
theorem record_run_images (env : Env) (enc : Image → Str) (prog f : Str) (args rest : List Str) (h0 : 0 ∉ prog) (hf : f ≠ []) (fuel : Nat)
    (w : World) (o : Obj) (path : List Str) (it : ImgTol)
    (hparse : parseArguments w.fs fuel { o with unmatched := o.unmatched + 1 } (prog :: args) = ({ searchPath := path, imageTol := it, unmatched := 0 + 1, outFileName := f }, .ok rest))
    (xs : List (Str × Image)) (hn : xs.length ≤ 4294967296) (files : List Str)
    (hfiles : FilesOf ⟨prog :: args, 0⟩ xs.length files) (hcreate : w.creatable (cstr f) = true)
    (hnew : w.fs.stat (cstr f) = none ∨ (w.fs.canRead (cstr f) = true ∧ w.fs.canWrite (cstr f) = true))
    (hcr : ∀ g ∈ files, w.creatable g = true ∧ (w.fs.stat g = none ∨ w.fs.canRead g = true)) (hown : cstr f ∉ files) :
    ∃ s', main env (fun _ => imagesTest enc ⟨prog :: args, 0⟩ xs) fuel (prog :: args) ⟨o, w⟩ = (s', .ok 0) ∧
      isFile s'.world.fs f = true ∧ isReadable s'.world.fs f = true ∧ s'.world.openRead f = some (header w ++ imageLines xs files ++ footer) ∧
      (∀ (i : Nat) (x : Str × Image) (g : Str), xs[i]? = some x → files[i]? = some g → s'.world.openRead g = some (enc x.2)) ∧
      s'.world.creatable = w.creatable ∧
      ∀ m, m ∉ files → m ≠ cstr f → s'.world.fs.stat m = w.fs.stat m ∧ s'.world.fs.canRead m = w.fs.canRead m ∧ s'.world.bytes m = w.bytes m := by
  obtain ⟨w', hwr, hbegin, hb0⟩ := begin_record env ⟨{ searchPath := path, imageTol := it, unmatched := 0 + 1, outFileName := f }, w⟩ rfl rfl hf hcreate
  obtain ⟨s1', hbegin', hdoc, -⟩ := C41_recorded_document env (fun _ => imagesTest enc ⟨prog :: args, 0⟩ xs) fuel (prog :: args)
    ⟨o, w⟩ _ _ hparse rfl rfl hf hcreate (keeps_images enc f prog _ h0 xs 0 files hfiles hown)
  rw [hbegin'] at hbegin
  have hs1 : s1' = _ := congrArg Prod.fst hbegin
  simp only [World.openWrite, if_pos hcreate, Option.some.injEq] at hwr
  obtain ⟨s1, es1⟩ : ∃ s1, s1 = s1' := ⟨_, rfl⟩
  rw [← es1] at hs1 hbegin' hdoc
  have ho1 : s1.obj = { searchPath := path, imageTol := it, unmatched := 0 + 1, outFileName := f, os := some f } := by rw [hs1, emit_obj]
  have hfr := frame_emit ⟨{ searchPath := path, imageTol := it, unmatched := 0 + 1, outFileName := f, os := some f }, w'⟩ (header w)
  rw [show St.emit ⟨{ searchPath := path, imageTol := it, unmatched := 0 + 1, outFileName := f, os := some f }, w'⟩ (header w) = s1 from hs1.symm] at hfr
  obtain ⟨-, ⟨b, co, hw1, hb1⟩⟩ := hfr
  have hc1 : s1.world.creatable = w.creatable := by rw [hw1, ← hwr]
  have hstat1 : ∀ m, m ≠ cstr f → s1.world.fs.stat m = w.fs.stat m ∧ s1.world.fs.canRead m = w.fs.canRead m ∧ s1.world.bytes m = w.bytes m := by
    intro m hm
    refine ⟨?_, ?_, ?_⟩
    · rw [hw1, ← hwr]; exact if_neg hm
    · rw [hw1, ← hwr]; exact if_neg (fun h => hm h.1)
    · rw [hw1]
      simp only
      rw [hb1 m (fun o ho => by cases ho; exact hm), ← hwr]
      exact if_neg hm
  have hf1 : s1.world.fs.stat (cstr f) = some .regular ∧ s1.world.fs.canRead (cstr f) = true := by
    rw [hw1, ← hwr]
    simp only [true_and, if_true]
    rcases hnew with h | h
    · simp [h]
    · simp [h.1]
  have hgf : ∀ g ∈ files, g ≠ cstr f := fun g hg he => hown (he ▸ hg)
  obtain ⟨s2, hrun, ho2, hcalls⟩ := record_images env enc prog _ h0 xs 0 files s1 hfiles (by rw [ho1]) (by rw [ho1]) (fun g hg => by rw [hc1]; exact (hcr g hg).1)
  have hrec : s2.compareMode = false := Xml.recording s2 (by rw [ho2, ho1]) (by rw [ho2, ho1])
  have hos1 : s1.obj.os = some f := by rw [ho1]
  obtain ⟨own, other⟩ := C103_own_files env enc _ (by simpa using h0) 0 xs hn files hfiles s1 s2 0 hrun (by rw [hos1]; intro o ho; cases ho; exact hown)
  have hmain : main env (fun _ => imagesTest enc ⟨prog :: args, 0⟩ xs) fuel (prog :: args) ⟨o, w⟩ =
      (⟨{ s1.obj with os := none, is := none, unmatched := s1.obj.unmatched - 1 }, (s2.emit footer).world⟩, .ok 0) := by
    simp only [main, tryBlock, hparse, hbegin', hrun, endMeasurement, hrec, Bool.false_eq_true, if_false, emit_obj, ho2, mainValue]
    simp [ho1, St.compareMode]
  refine ⟨_, hmain, ?_⟩
  have hbytes := hdoc 0 (by rw [hrun])
  rw [hmain] at hbytes
  simp only at hbytes ⊢
  have hlines : (observed env (imagesTest enc ⟨prog :: args, 0⟩ xs) s1).flatMap (fun x => line (recordedMeas x.call)) = imageLines xs files := by
    have e : ∀ os : List Obs, os.flatMap (fun x => line (recordedMeas x.call)) = ((os.map (·.call)).map fun c => line (recordedMeas c)).flatten := by
      intro os
      rw [List.map_map, List.flatMap_def]
      rfl
    rw [e, hcalls, List.map_zipWith]
    rfl
  rw [hlines] at hbytes
  have hfs : (s2.emit footer).world.fs = s2.world.fs := emit_fs _ _
  have hos2 : s2.obj.os = some f := by rw [ho2, hos1]
  have hem : ∀ m, m ≠ cstr f → (s2.emit footer).world.bytes m = s2.world.bytes m := by
    intro m hm
    rw [St.emit, hos2]
    exact if_neg hm
  obtain ⟨k1, k2, -⟩ := other (cstr f) hown
  rw [hf1.1] at k1
  rw [hf1.2] at k2
  refine ⟨by simp [isFile, hfs, k1], by simp [isReadable, isDirectory, hfs, k1, k2], ?_, ?_, ?_, ?_⟩
  · rw [World.openRead, if_pos (by simp [hfs, k1, k2]), hbytes]
  · intro i x g hx hg
    have hmem : g ∈ files := List.mem_of_getElem? hg
    obtain ⟨-, -, e3⟩ := own i x g hx hg
    have := e3 (by rw [(hstat1 g (hgf g hmem)).1, (hstat1 g (hgf g hmem)).2.1]; exact (hcr g hmem).2)
    have hgc : cstr g = g := by
      obtain ⟨l1, l2⟩ := files_eq prog _ _ _ _ hfiles
      have hi : i < xs.length := (List.getElem?_eq_some_iff.mp hx).1
      rw [l2 i hi] at hg
      cases hg
      exact fileAt_nul prog _ _ h0
    rw [World.openRead, hgc] at this ⊢
    rw [hfs, hem g (hgf g hmem)]
    exact this
  · have h1 := frame_emit s2 footer
    obtain ⟨-, ⟨b2, co2, hw2, -⟩⟩ := h1
    rw [hw2]
    simp only
    have : ∀ (xs : List (Str × Image)) (c : UInt32) (s s' : St) (r : Int), runProg env (imagesTest enc ⟨prog :: args, c⟩ xs) s = (s', .ok r) →
        s'.world.creatable = s.world.creatable := by
      intro xs
      induction xs with
      | nil => intro c s s' r h; cases h; rfl
      | cons q xs ih =>
        intro c s s' r h
        rw [imagesTest, run_image] at h
        split at h
        · have hfr := frame_call env { s with world := saveImage enc s.world (fileAt prog args (c + 1)) q.2 } (.fileITK (fileAt prog args (c + 1)) q.1)
          rcases hc : runCall env { s with world := saveImage enc s.world (fileAt prog args (c + 1)) q.2 } (.fileITK (fileAt prog args (c + 1)) q.1) with ⟨s3, e | v⟩
          · rw [hc] at h; cases h
          · rw [hc] at h hfr
            obtain ⟨-, ⟨b3, co3, hw3, -⟩⟩ := hfr
            rw [ih _ _ _ _ h, hw3]
            exact save_creatable enc s.world _ _
        · cases h
    rw [this xs 0 s1 s2 0 hrun, hc1]
  · intro m hm hmf
    obtain ⟨e1, e2, e3⟩ := other m hm
    obtain ⟨d1, d2, d3⟩ := hstat1 m hmf
    rw [hfs, e1, e2, hem m hmf, e3 (by rw [hos1]; intro o ho; cases ho; exact hmf)]
    exact ⟨d1, d2, d3⟩

/-- A recording run: the document, and the files of the images. -/
theorem record_main (env : Env) (enc : Image → Str) (prog f : Str) (more : List Str) (hstop : Stops more) (h0 : 0 ∉ prog) (hf : f ≠ []) (fuel : Nat) (hfuel : 1 < fuel)
    (w : World) (path : List Str) (it : ImgTol) (xs : List (Str × Image)) (hn : xs.length ≤ 4294967296) (files : List Str)
    (hfiles : FilesOf ⟨prog :: b!"-O" :: f :: more, 0⟩ xs.length files) (hcreate : w.creatable (cstr f) = true)
    (hnew : w.fs.stat (cstr f) = none ∨ (w.fs.canRead (cstr f) = true ∧ w.fs.canWrite (cstr f) = true))
    (hcr : ∀ g ∈ files, w.creatable g = true ∧ (w.fs.stat g = none ∨ w.fs.canRead g = true)) (hown : cstr f ∉ files) :
    ∃ s', main env (fun _ => imagesTest enc ⟨prog :: b!"-O" :: f :: more, 0⟩ xs) fuel (prog :: b!"-O" :: f :: more) ⟨{ searchPath := path, imageTol := it }, w⟩ = (s', .ok 0) ∧
      isFile s'.world.fs f = true ∧ isReadable s'.world.fs f = true ∧ s'.world.openRead f = some (header w ++ imageLines xs files ++ footer) ∧
      (∀ (i : Nat) (x : Str × Image) (g : Str), xs[i]? = some x → files[i]? = some g → s'.world.openRead g = some (enc x.2)) ∧
      s'.world.creatable = w.creatable ∧
      ∀ m, m ∉ files → m ≠ cstr f → s'.world.fs.stat m = w.fs.stat m ∧ s'.world.fs.canRead m = w.fs.canRead m ∧ s'.world.bytes m = w.bytes m := by
  have hnw : ¬ (isFile w.fs f = true ∧ isWritable w.fs f = false) := by
    rintro ⟨h1, h2⟩
    rcases hnew with h | ⟨_, h⟩
    · simp [isFile, h] at h1
    · simp [isWritable, isDirectory, h] at h2
      simp [isFile, h2.1] at h1
  have hparse : parseArguments w.fs fuel { searchPath := path, imageTol := it, unmatched := 0 + 1 } (prog :: b!"-O" :: f :: more) =
      ({ searchPath := path, imageTol := it, unmatched := 0 + 1, outFileName := f }, .ok (prog :: more)) := by
    have := C35_options_removed w.fs fuel { searchPath := path, imageTol := it, unmatched := 0 + 1 } prog [(b!"-O", f)] more (by simp [IsOption])
      (by simp [Refused]) hstop (by simpa using hfuel)
    rw [flat] at this
    simp only [flat, List.cons_append, List.nil_append] at this
    rw [this]
    have e1 : lastValue b!"-R" [(b!"-O", f)] = none := by simp [lastValue]
    have e2 : lastValue b!"-I" [(b!"-O", f)] = none := by simp [lastValue]
    have e3 : lastValue b!"-O" [(b!"-O", f)] = some f := by simp [lastValue]
    have e4 : values b!"-P" [(b!"-O", f)] = [] := by simp [values]
    rw [e1, e2, e3, e4]
    simp [hnw]
  exact record_run_images env enc prog f _ _ h0 hf fuel w _ path it hparse xs hn files hfiles hcreate hnew hcr hown

/-- A comparing run, given what the calls of the test add. -/
theorem compare_run_images (env : Env) (enc : Image → Str) (prog f : Str) (args rest : List Str) (h0 : 0 ∉ prog) (hf : f ≠ []) (fuel : Nat)
    (w : World) (o : Obj) (path : List Str) (it : ImgTol)
    (hparse : parseArguments w.fs fuel { o with unmatched := o.unmatched + 1 } (prog :: args) = ({ searchPath := path, imageTol := it, unmatched := 0 + 1, inFileName := f }, .ok rest))
    (ys : List (Str × Image)) (hn : ys.length ≤ 4294967296) (files : List Str) (hfiles : FilesOf ⟨prog :: args, 0⟩ ys.length files)
    (hown : cstr f ∉ files) (hown' : ∀ p ∈ path, cstr (append p f) ∉ files) (q bytes : Str)
    (hq : q = if searchPathList w.fs f path = [] then f else searchPathList w.fs f path) (hfile : isFile w.fs q = true) (hread : isReadable w.fs q = true)
    (hopen : w.openRead q = some bytes) (ms : List Meas) (hxml : env.readXML bytes = .ok ms) (n : Nat)
    (hcalls : ∃ s2, runProg env (imagesTest enc ⟨prog :: args, 0⟩ ys)
        ⟨{ searchPath := path, imageTol := it, unmatched := 0 + 1, inFileName := f, is := some bytes, input := ms }, w⟩ = (s2, .ok 0) ∧ s2.obj.unmatched = (0 + 1) + n) :
    (main env (fun _ => imagesTest enc ⟨prog :: args, 0⟩ ys) fuel (prog :: args) ⟨o, w⟩).2 = .ok n := by
  have hbegin : beginMeasurement env ⟨{ searchPath := path, imageTol := it, unmatched := 0 + 1, inFileName := f }, w⟩ =
      (⟨{ searchPath := path, imageTol := it, unmatched := 0 + 1, inFileName := f, is := some bytes, input := ms }, w⟩, .ok ()) := by
    have hin : openInput ⟨{ searchPath := path, imageTol := it, unmatched := 0 + 1, inFileName := f }, w⟩ =
        (⟨{ searchPath := path, imageTol := it, unmatched := 0 + 1, inFileName := f, is := some bytes }, w⟩, .ok ()) := by
      by_cases h : searchPathList w.fs f path = []
      · rw [if_pos h] at hq
        rw [hq] at hopen
        simp [openInput, Obj.searched, hf, h, hopen]
      · rw [if_neg h] at hq
        rw [hq] at hopen
        simp [openInput, Obj.searched, hf, h, hopen]
    have hout : openOutput ⟨{ searchPath := path, imageTol := it, unmatched := 0 + 1, inFileName := f }, w⟩ =
        (⟨{ searchPath := path, imageTol := it, unmatched := 0 + 1, inFileName := f }, w⟩, .ok ()) := by
      simp [openOutput]
    rw [beginMeasurement, hout]
    simp only [Res.andThen]
    rw [hin]
    simp [startOrRead, St.compareMode, hxml]
  obtain ⟨s1, hs1⟩ : ∃ s1 : St, s1 = ⟨{ searchPath := path, imageTol := it, unmatched := 0 + 1, inFileName := f, is := some bytes, input := ms }, w⟩ := ⟨_, rfl⟩
  obtain ⟨s2, hrun, hun⟩ := hcalls
  rw [← hs1] at hrun
  obtain ⟨-, ⟨u, i, ho⟩, hother, -⟩ := run_images env enc prog _ h0 ys 0 files s1 s2 0 hn hfiles hrun
  have hcm : s2.compareMode = true := compareMode_is (b := bytes) (by rw [ho, hs1])
  have hbegin : beginMeasurement env ⟨{ searchPath := path, imageTol := it, unmatched := 0 + 1, inFileName := f }, w⟩ = (s1, .ok ()) := by rw [hbegin, hs1]
  have hsearch : ∀ (ps : List Str) (acc : Str), (∀ p ∈ ps, p ∈ path) → Path.searchLoop s2.world.fs f ps acc = Path.searchLoop w.fs f ps acc := by
    intro ps
    induction ps with
    | nil => intro acc _; rfl
    | cons p ps ih =>
      intro acc hp
      have he : isFile s2.world.fs (append p f) = isFile w.fs (append p f) := by
        have := (hother _ (hown' p (hp p (by simp)))).1
        rw [hs1] at this
        simp only [isFile, this]
      simp only [Path.searchLoop, he]
      rw [ih _ (fun p' h' => hp p' (by simp [h']))]
  have hsp : searchPathList s2.world.fs f path = searchPathList w.fs f path := hsearch path [] (fun _ h => h)
  have hqf : cstr q ∉ files := by
    have key : ∀ (ps : List Str) (acc : Str), (∀ p ∈ ps, p ∈ path) → (acc = [] ∨ cstr acc ∉ files) →
        Path.searchLoop w.fs f ps acc = [] ∨ cstr (Path.searchLoop w.fs f ps acc) ∉ files := by
      intro ps
      induction ps with
      | nil => intro acc _ h; exact h
      | cons p ps ih =>
        intro acc hp h
        have hp1 := hown' p (hp p (by simp))
        simp only [Path.searchLoop]
        split
        · exact .inr hp1
        · exact ih _ (fun p' h' => hp p' (by simp [h'])) (.inr hp1)
    rw [hq]
    split
    · exact hown
    · next h =>
      rcases key path [] (fun _ h => h) (.inl rfl) with h' | h'
      · exact absurd h' h
      · exact h'
  have hpres : baselinePresent { s2.obj with input := [], os := none, is := none, unmatched := s2.obj.unmatched - 1 } s2.world.fs := by
    have e1 : s2.obj.inFileName = f ∧ s2.obj.searchPath = path := by rw [ho, hs1]; exact ⟨rfl, rfl⟩
    refine ⟨by rw [e1.1]; exact hf, ?_⟩
    simp only
    rw [e1.1, e1.2, hsp, ← hq]
    obtain ⟨d1, d2, -⟩ := hother _ hqf
    rw [hs1] at d1 d2
    have hex : isDirectory w.fs q = false := by
      simp only [isFile] at hfile
      simp only [isDirectory]
      rw [eq_of_beq hfile]; rfl
    constructor
    · simp only [isFile, d1]; exact hfile
    · simp only [isReadable, hex, Bool.not_false, Bool.true_or, Bool.and_true] at hread
      simp only [isFile] at hfile
      simp [isReadable, isDirectory, d1, d2, eq_of_beq hfile, hread]
  have hexp : s2.obj.expected = 0 := by rw [ho, hs1]
  have hcm2 : St.compareMode ⟨{ s2.obj with input := [], os := none, is := none, unmatched := s2.obj.unmatched - 1 }, s2.world⟩ = true :=
    (compareMode_noStream _ rfl).mpr hpres
  simp only [main, tryBlock, hparse, hbegin, hrun, endMeasurement, hcm, if_true, mainValue, hexp, ne_eq, not_true_eq_false, if_false, hcm2]
  rw [hun]
  simp
  intro h
  exact ((Bool.eq_false_iff.mp h) ((compareMode_noStream _ rfl).mpr ⟨hpres.1, hpres.2⟩)).elim

/-- A comparing run: the number of images that are not like the image recorded at their position. -/
theorem compare_main (I : Toolkit) (hI : Sound I) (enc : Image → Str) (dec : Str → Option Loaded) (hR : ReadsFiles I dec) (env : Env) (henv : env.image = some I.imageEnv)
    (prog f : Str) (more : List Str) (hstop : Stops more) (h0 : 0 ∉ prog) (hf : f ≠ []) (fuel : Nat) (hfuel : 1 < fuel)
    (w : World) (path : List Str) (it : ImgTol) (xs ys : List (Str × Image)) (hn : ys.length ≤ 4294967296) (files : List Str)
    (hfiles : FilesOf ⟨prog :: b!"-I" :: f :: more, 0⟩ ys.length files)
    (hcr : ∀ g ∈ files, w.creatable g = true ∧ (w.fs.stat g = none ∨ w.fs.canRead g = true))
    (hown : cstr f ∉ files) (hown' : ∀ p ∈ path, cstr (append p f) ∉ files)
    (hopt : isFile w.fs f = true ∧ isReadable w.fs f = true) (q bytes : Str)
    (hq : q = if searchPathList w.fs f path = [] then f else searchPathList w.fs f path) (hfile : isFile w.fs q = true) (hread : isReadable w.fs q = true)
    (hopen : w.openRead q = some bytes) (ms : List Meas) (hxml : env.readXML bytes = .ok ms) (hkept : List.Forall₂ (Kept enc w path files) xs ms)
    (hxs : ∀ x ∈ xs, Survives enc dec x.2) (hys : ∀ y ∈ ys, Survives enc dec y.2) :
    (main env (fun _ => imagesTest enc ⟨prog :: b!"-I" :: f :: more, 0⟩ ys) fuel (prog :: b!"-I" :: f :: more) ⟨{ searchPath := path, imageTol := it }, w⟩).2 =
      .ok (unlikeImages I it xs ys) := by
  have hparse : parseArguments w.fs fuel { searchPath := path, imageTol := it, unmatched := 0 + 1 } (prog :: b!"-I" :: f :: more) =
      ({ searchPath := path, imageTol := it, unmatched := 0 + 1, inFileName := f }, .ok (prog :: more)) := by
    have := C35_options_removed w.fs fuel { searchPath := path, imageTol := it, unmatched := 0 + 1 } prog [(b!"-I", f)] more (by simp [IsOption])
      (by simp [Refused, hopt]) hstop (by simpa using hfuel)
    rw [flat] at this
    simp only [flat, List.cons_append, List.nil_append] at this
    rw [this]
    have e1 : lastValue b!"-R" [(b!"-I", f)] = none := by simp [lastValue]
    have e2 : lastValue b!"-I" [(b!"-I", f)] = some f := by simp [lastValue]
    have e3 : lastValue b!"-O" [(b!"-I", f)] = none := by simp [lastValue]
    have e4 : values b!"-P" [(b!"-I", f)] = [] := by simp [values]
    rw [e1, e2, e3, e4]
    simp
  refine compare_run_images env enc prog f _ _ h0 hf fuel w _ path it hparse ys hn files hfiles hown hown' q bytes hq hfile hread hopen ms hxml _ ?_
  exact compare_images I hI enc dec hR env henv prog _ h0 ys xs 0 files _ bytes hn hfiles rfl rfl hkept hcr hxs hys

theorem printable_file (prog : Str) (args : List Str) (c : UInt32) (h : ∀ c ∈ prog, Printable c) : ∀ x ∈ fileAt prog args c, Printable x := by
  have h1 := (hexText_safe c.toNat).2.2.2
  have h2 := (hexText_safe (hashArgs (prog :: args)).toNat).2.2.2
  intro x hx
  simp only [fileAt, stem, List.mem_append] at hx
  rcases hx with ((((hx | hx) | hx) | hx) | hx) | hx
  · exact h x hx
  · revert x; decide
  · exact h2 x hx
  · revert x; decide
  · exact h1 x hx
  · revert x; decide

/-- Reading the recording of images. -/
theorem read_images (X : Expat) (hX : Conforms X) (w : World) (hw : Comment (commentText w)) (prog : Str) (args : List Str) (hprog : ∀ c ∈ prog, Printable c)
    (xs : List (Str × Image)) (hnames : ∀ x ∈ xs, ∀ c ∈ x.1, AttrChar c) (files : List Str) (hfiles : FilesOf ⟨prog :: args, 0⟩ xs.length files) :
    readXML X (header w ++ imageLines xs files ++ footer) = .ok ((List.zipWith (fun x g => Call.fileITK g x.1) xs files).map recordedMeas) := by
  obtain ⟨hlen, hat⟩ := files_eq prog _ _ _ _ hfiles
  have := read_recording X hX (List.zipWith (fun x g => Call.fileITK g x.1) xs files) w hw (by
    intro c hc
    obtain ⟨i, hi, rfl⟩ := List.mem_iff_getElem.mp hc
    simp only [List.length_zipWith] at hi
    rw [List.getElem_zipWith]
    refine ⟨hnames _ (List.getElem_mem _), show ∀ c ∈ b!"image/itk", AttrChar c by decide, ?_, rfl⟩
    intro x hx
    have hx := baseName_mem _ _ hx
    have e := hat i (by omega)
    rw [List.getElem?_eq_getElem (by omega), Option.some.injEq] at e
    rw [e] at hx
    exact printable_file prog _ _ hprog x hx)
  have hl : imageLines xs files = ((List.zipWith (fun x g => Call.fileITK g x.1) xs files).map fun c => line (recordedMeas c)).flatten := by
    rw [List.map_zipWith]
    rfl
  rw [hl, ← this]

/-- **C103.** A test that measures images, recorded with `-O` and compared with `-I`, the arguments being the same otherwise: the recording run returns 0
and the comparing run returns the number of images that are not like the image recorded at their position under the same name, each image being
compared with the one recorded, whatever names are generated.  The images come back from their files as they were written; the recorded names, which are
only the last components, lead to the files of the recording run (`hfound`), as they do in `C103_same_directory`. -/
theorem C103_record_and_compare (I : Toolkit) (hI : Sound I) (enc : Image → Str) (dec : Str → Option Loaded) (hR : ReadsFiles I dec) (X : Expat) (hX : Conforms X)
    (env : Env) (henv : env.image = some I.imageEnv) (prog f : Str) (more : List Str) (hstop : Stops more) (hprog : ∀ c ∈ prog, Printable c) (hf : f ≠ [])
    (fuel : Nat) (hfuel : 1 < fuel) (w : World) (hw : Comment (commentText w)) (path : List Str) (hpath : ∀ p ∈ path, 0 ∉ p) (it : ImgTol)
    (xs ys : List (Str × Image)) (hxn : xs.length ≤ 4294967296) (hyn : ys.length ≤ 4294967296) (hnames : ∀ x ∈ xs, ∀ c ∈ x.1, AttrChar c)
    (hxs : ∀ x ∈ xs, Survives enc dec x.2) (hys : ∀ y ∈ ys, Survives enc dec y.2) (files files' : List Str)
    (hfiles : FilesOf ⟨prog :: b!"-O" :: f :: more, 0⟩ xs.length files) (hfiles' : FilesOf ⟨prog :: b!"-I" :: f :: more, 0⟩ ys.length files')
    (hcreate : w.creatable (cstr f) = true)
    (hnew : w.fs.stat (cstr f) = none ∨ (w.fs.canRead (cstr f) = true ∧ w.fs.canWrite (cstr f) = true))
    (hcr : ∀ g ∈ files ++ files', w.creatable g = true ∧ (w.fs.stat g = none ∨ w.fs.canRead g = true)) (hown : cstr f ∉ files ++ files')
    (hown' : ∀ p ∈ path, cstr (append p f) ∉ files') (w1 : World)
    (hw1 : (main (withXML X env) (fun _ => imagesTest enc ⟨prog :: b!"-O" :: f :: more, 0⟩ xs) fuel (prog :: b!"-O" :: f :: more)
      ⟨{ searchPath := path, imageTol := it }, w⟩).1.world = w1)
    (hbase : searchPathList w1.fs f path = [] ∨ searchPathList w1.fs f path = f) (hfound : ∀ g ∈ files, located w1 path (baseName g) = g) :
    (main (withXML X env) (fun _ => imagesTest enc ⟨prog :: b!"-O" :: f :: more, 0⟩ xs) fuel (prog :: b!"-O" :: f :: more)
      ⟨{ searchPath := path, imageTol := it }, w⟩).2 = .ok 0 ∧
    (main (withXML X env) (fun _ => imagesTest enc ⟨prog :: b!"-I" :: f :: more, 0⟩ ys) fuel (prog :: b!"-I" :: f :: more)
      ⟨{ searchPath := path, imageTol := it }, w1⟩).2 = .ok (unlikeImages I it xs ys) := by
  have h0 : 0 ∉ prog := fun h => absurd (hprog 0 h) (by decide)
  have hcr1 : ∀ g ∈ files, w.creatable g = true ∧ (w.fs.stat g = none ∨ w.fs.canRead g = true) := fun g hg => hcr g (by simp [hg])
  have hown1 : cstr f ∉ files := fun h => hown (by simp [h])
  obtain ⟨s', hmain, r1, r2, r3, himg, hc1, hother⟩ := record_main (withXML X env) enc prog f more hstop h0 hf fuel hfuel w path it xs hxn files hfiles hcreate hnew
    hcr1 hown1
  rw [hmain] at hw1 ⊢
  simp only at hw1
  subst hw1
  refine ⟨rfl, ?_⟩
  have hdiff := C103_record_and_compare_files [prog] (f :: more) xs.length ys.length 0 0 files files'
    (by simpa only [List.cons_append, List.nil_append] using hfiles) (by simpa only [List.cons_append, List.nil_append] using hfiles')
  obtain ⟨hlen, hat⟩ := files_eq prog _ _ _ _ hfiles
  have hdoc : (withXML X env).readXML (header w ++ imageLines xs files ++ footer) =
      .ok ((List.zipWith (fun x g => Call.fileITK g x.1) xs files).map recordedMeas) := by
    rw [show (withXML X env).readXML = readXML X from rfl]
    exact read_images X hX w hw prog _ hprog xs hnames files hfiles
  have henv' : (withXML X env).image = some I.imageEnv := henv
  have hown2 : cstr f ∉ files' := fun h => hown (by simp [h])
  generalize withXML X env = env' at henv' hdoc ⊢
  generalize header w ++ imageLines xs files ++ footer = bytes at hdoc r3
  have hcr2 : ∀ g ∈ files', s'.world.creatable g = true ∧ (s'.world.fs.stat g = none ∨ s'.world.fs.canRead g = true) := by
    intro g hg
    have hg1 : g ∉ files := fun h => hdiff g h g hg rfl
    obtain ⟨e1, e2, -⟩ := hother g hg1 (fun h => hown (by simp [← h, hg]))
    rw [hc1, e1, e2]
    exact hcr g (by simp [hg])
  have hq : f = if searchPathList s'.world.fs f path = [] then f else searchPathList s'.world.fs f path := by
    rcases hbase with h | h
    · rw [if_pos h]
    · rw [h]; simp
  generalize hms : (List.zipWith (fun x g => Call.fileITK g x.1) xs files).map recordedMeas = ms at hdoc
  have hkept : List.Forall₂ (Kept enc s'.world path files') xs ms := by
    rw [← hms, List.forall₂_iff_get]
    refine ⟨by simp [hlen], ?_⟩
    intro i hi hi'
    have hil : i < files.length := by omega
    have hg := List.getElem_mem hil
    have e := hat i hi
    rw [List.getElem?_eq_getElem hil, Option.some.injEq] at e
    have hm : ((List.zipWith (fun x g => Call.fileITK g x.1) xs files).map recordedMeas).get ⟨i, hi'⟩ =
        .file { type := b!"image/itk", name := xs[i].1, fileName := baseName files[i] } := by
      simp only [List.get_eq_getElem, List.getElem_map, List.getElem_zipWith]
      rfl
    rw [hm]
    rw [Kept]
    refine Exists.intro { type := b!"image/itk", name := xs[i].1, fileName := baseName files[i] } (And.intro rfl (And.intro rfl (And.intro rfl (And.intro ?_ ?_))))
    · intro m hm hg'
      have h0' : 0 ∉ baseName files[i] := by
        intro h
        have h := baseName_mem _ _ h
        rw [e] at h
        exact absurd (printable_file prog _ _ hprog 0 h) (by decide)
      have := candidate_tail path hpath _ m h0' hm
      rw [baseName_id _ (baseName_slashless _)] at this
      exact hdiff _ hg _ hg' this.symm
    · simp only
      rw [hfound _ hg]
      exact himg i xs[i] files[i] (by simp [hi]) (by simp [hil])
  exact compare_main I hI enc dec hR env' henv' prog f more hstop h0 hf fuel hfuel s'.world path it xs ys hyn files' hfiles' hcr2
    hown2 hown' ⟨r1, r2⟩ f bytes hq r1 r2 r3 ms hdoc hkept hxs hys

/-- The names are in the way of nothing when the program is called by its name alone and there is no search path. -/
theorem C103_same_directory (I : Toolkit) (hI : Sound I) (enc : Image → Str) (dec : Str → Option Loaded) (hR : ReadsFiles I dec) (X : Expat) (hX : Conforms X)
    (env : Env) (henv : env.image = some I.imageEnv) (prog f : Str) (more : List Str) (hstop : Stops more) (hprog : ∀ c ∈ prog, Printable c ∧ c ≠ 47) (hf : f ≠ [])
    (fuel : Nat) (hfuel : 1 < fuel) (w : World) (hw : Comment (commentText w)) (it : ImgTol)
    (xs ys : List (Str × Image)) (hxn : xs.length ≤ 4294967296) (hyn : ys.length ≤ 4294967296) (hnames : ∀ x ∈ xs, ∀ c ∈ x.1, AttrChar c)
    (hxs : ∀ x ∈ xs, Survives enc dec x.2) (hys : ∀ y ∈ ys, Survives enc dec y.2) (files files' : List Str)
    (hfiles : FilesOf ⟨prog :: b!"-O" :: f :: more, 0⟩ xs.length files) (hfiles' : FilesOf ⟨prog :: b!"-I" :: f :: more, 0⟩ ys.length files')
    (hcreate : w.creatable (cstr f) = true)
    (hnew : w.fs.stat (cstr f) = none ∨ (w.fs.canRead (cstr f) = true ∧ w.fs.canWrite (cstr f) = true))
    (hcr : ∀ g ∈ files ++ files', w.creatable g = true ∧ (w.fs.stat g = none ∨ w.fs.canRead g = true)) (hown : cstr f ∉ files ++ files') (w1 : World)
    (hw1 : (main (withXML X env) (fun _ => imagesTest enc ⟨prog :: b!"-O" :: f :: more, 0⟩ xs) fuel (prog :: b!"-O" :: f :: more)
      ⟨{ imageTol := it }, w⟩).1.world = w1) :
    (main (withXML X env) (fun _ => imagesTest enc ⟨prog :: b!"-O" :: f :: more, 0⟩ xs) fuel (prog :: b!"-O" :: f :: more) ⟨{ imageTol := it }, w⟩).2 = .ok 0 ∧
    (main (withXML X env) (fun _ => imagesTest enc ⟨prog :: b!"-I" :: f :: more, 0⟩ ys) fuel (prog :: b!"-I" :: f :: more) ⟨{ imageTol := it }, w1⟩).2 =
      .ok (unlikeImages I it xs ys) := by
  refine C103_record_and_compare I hI enc dec hR X hX env henv prog f more hstop (fun c hc => (hprog c hc).1) hf fuel hfuel w hw [] (by simp) it xs ys hxn hyn hnames hxs hys
    files files' hfiles hfiles' hcreate hnew hcr hown (by simp) w1 hw1 (.inl rfl) ?_
  intro g hg
  obtain ⟨hlen, hat⟩ := files_eq prog _ _ _ _ hfiles
  obtain ⟨i, hi, rfl⟩ := List.mem_iff_getElem.mp hg
  have e := hat i (by omega)
  rw [List.getElem?_eq_getElem hi, Option.some.injEq] at e
  have hb : baseName files[i] = files[i] := by
    rw [e]
    apply baseName_id
    intro h
    simp only [fileAt, stem, List.mem_append] at h
    rcases h with ((((h | h) | h) | h) | h) | h
    · exact (hprog _ h).2 rfl
    · revert h; decide
    · exact (hexText_safe _).2.1 h
    · revert h; decide
    · exact (hexText_safe _).2.1 h
    · revert h; decide
  simp [located, hb, searchPathList, Path.searchLoop]

end Verif.Itk
