import Verif.Itk.ImagesMain

/-!
# Property C103: a comparing run with the arguments of the recording run

The names of the files are made of the arguments.  A program that chooses output and baseline itself, so that both runs have the same arguments, writes the
images of the comparing run over the recorded ones before it compares.
-/

set_option linter.unusedSimpArgs false

namespace Verif.Itk
open Spec Verif.Path Verif.Measurement Verif.Measurement.Spec Verif.Regression Verif.Regression.Spec Verif.Xml Verif.Xml.Spec

/-- What the files hold that the baseline names, when they are written anew: the recorded names with the images of the comparing run. -/
def overwritten (xs ys : List (Str × Image)) : List (Str × Image) := List.zipWith (fun x y => (x.1, y.2)) xs ys

theorem fileAt_tail (prog : Str) (args : List Str) (c : UInt32) (hprog : 47 ∉ prog) : baseName (fileAt prog args c) = fileAt prog args c := by
  apply baseName_id
  intro h
  simp only [fileAt, stem, List.mem_append] at h
  rcases h with ((((h | h) | h) | h) | h) | h
  · exact hprog h
  · revert h; decide
  · exact (hexText_safe _).2.1 h
  · revert h; decide
  · exact (hexText_safe _).2.1 h
  · revert h; decide

/-- The recorded measurements of images. -/
def recordedImages (xs : List (Str × Image)) (files : List Str) : List Meas := (List.zipWith (fun x g => Call.fileITK g x.1) xs files).map recordedMeas

/-- Images compared with images recorded in the same files. -/
theorem compare_same (I : Toolkit) (hI : Sound I) (enc : Image → Str) (dec : Str → Option Loaded) (hR : ReadsFiles I dec) (env : Env) (henv : env.image = some I.imageEnv)
    (a : Str) (args : List Str) (h0 : 0 ∉ a) (ha : 47 ∉ a) : ∀ (ys xs : List (Str × Image)) (c : UInt32) (files filesx : List Str) (s : St) (bytes : Str),
    ys.length ≤ 4294967296 → FilesOf ⟨a :: args, c⟩ ys.length files → FilesOf ⟨a :: args, c⟩ xs.length filesx → s.obj.is = some bytes → s.obj.os = none → s.obj.searchPath = [] →
    s.obj.input = recordedImages xs filesx →
    (∀ g ∈ files, s.world.creatable g = true ∧ (s.world.fs.stat g = none ∨ s.world.fs.canRead g = true)) →
    (∀ y ∈ ys, Survives enc dec y.2) →
    ∃ s', runProg env (imagesTest enc ⟨a :: args, c⟩ ys) s = (s', .ok 0) ∧ s'.obj.unmatched = s.obj.unmatched + unlikeImages I s.obj.imageTol (overwritten xs ys) ys := by
  intro ys
  induction ys with
  | nil =>
    intro xs c files filesx s bytes _ _ _ _ _ _ _ _ _
    exact ⟨s, rfl, by cases xs <;> simp [unlikeImages, overwritten]⟩
  | cons y ys ih =>
    obtain ⟨name, im⟩ := y
    intro xs c files filesx s bytes hn hf hfx his hos hpath hin hcr hys
    obtain ⟨rest, rfl, hrest⟩ := files_cons a args ys.length c files hf
    rw [imagesTest, run_image]
    have hnul := fileAt_nul a args (c + 1) h0
    have htail := fileAt_tail a args (c + 1) ha
    have hne : ∀ g ∈ rest, g ≠ fileAt a args (c + 1) := by
      intro g hg he
      obtain ⟨j, hj, rfl⟩ := List.mem_iff_getElem.mp hg
      have hlen := (files_eq a args _ _ _ hrest).1
      have := files_distinct a args (ys.length + 1) (by simpa using hn) c _ hf 0 (j + 1) (by omega) (by omega) (fileAt a args (c + 1)) rest[j] (by simp) (by simp [hj]) (by rw [he])
      omega
    obtain ⟨hc1, hc2⟩ := hcr (fileAt a args (c + 1)) (by simp)
    rw [hnul, if_pos hc1]
    obtain ⟨cr, hsave, hcan⟩ := save_eq enc s.world (fileAt a args (c + 1)) im (by rw [hnul]; exact hc1)
    rw [hnul] at hsave hcan
    obtain ⟨s1, hs1⟩ : ∃ s1 : St, s1 = { s with world := saveImage enc s.world (fileAt a args (c + 1)) im } := ⟨_, rfl⟩
    rw [← hs1]
    have hw1 : s1.world = saveImage enc s.world (fileAt a args (c + 1)) im := by rw [hs1]
    have ho1 : s1.obj = s.obj := by rw [hs1]
    have hmine : s1.world.openRead (fileAt a args (c + 1)) = some (enc im) := by
      rw [World.openRead, hnul, if_pos, hw1, hsave]
      · simp
      · rw [hw1, hsave]
        refine ⟨by simp, ?_⟩
        simp only
        rw [hcan]
        rcases hc2 with h | h
        · exact .inl ⟨rfl, h⟩
        · exact .inr h
    have hstep : ∃ s2 r, runCall env s1 (.fileITK (fileAt a args (c + 1)) name) = (s2, .ok r) ∧ s2.obj.input = s.obj.input.drop 1 ∧
        s2.obj.unmatched + unlikeImages I s.obj.imageTol (overwritten (xs.drop 1) ys) ys =
          s.obj.unmatched + unlikeImages I s.obj.imageTol (overwritten xs ((name, im) :: ys)) ((name, im) :: ys) := by
      cases xs with
      | nil =>
        have hin : s.obj.input = [] := by rw [hin]; rfl
        have := runCall_named env s1 (.fileITK (fileAt a args (c + 1)) name) (compareMode_is (by rw [ho1]; exact his)) (by rw [ho1]; exact hin)
        refine ⟨_, _, this, ?_, ?_⟩
        · rw [emit_obj, ho1]; simp [hin]
        · rw [emit_obj, ho1]
          simp only [overwritten, List.drop_nil, List.zipWith_nil_left, unlikeImages]
          push_cast
          omega
      | cons x xs =>
        obtain ⟨restx, rfl, -⟩ := files_cons a args xs.length c filesx hfx
        have hin : s.obj.input = .file { type := b!"image/itk", name := x.1, fileName := fileAt a args (c + 1) } :: recordedImages xs restx := by
          rw [hin]
          simp only [recordedImages, List.zipWith_cons_cons, List.map_cons, recordedMeas, Call.meas]
          rw [htail]
        obtain ⟨lt, t1, t2⟩ := hys (name, im) (by simp)
        have hloc : located s1.world s1.obj.searchPath (fileAt a args (c + 1)) = fileAt a args (c + 1) := by
          rw [ho1, hpath]; simp [located, searchPathList, Path.searchLoop]
        obtain ⟨s2, r, c1, c2, c3⟩ := image_call I hI dec hR env henv s1 bytes (by rw [ho1]; exact his) (fileAt a args (c + 1)) name _ _ (by rw [ho1]; exact hin) rfl lt lt
          (by rw [hmine]; exact t1) (by simp only; rw [hloc, hmine]; exact t1)
        refine ⟨s2, r, c1, by rw [c2, hin]; rfl, ?_⟩
        rw [c3, ho1, t2]
        simp only [overwritten, List.drop_succ_cons, List.drop_zero, List.zipWith_cons_cons, unlikeImages]
        split <;> push_cast <;> omega
    obtain ⟨s2, r, hr, hin2, hun⟩ := hstep
    have hfr := frame_call env s1 (.fileITK (fileAt a args (c + 1)) name)
    rw [hr] at hfr ⊢
    simp only
    obtain ⟨⟨u, i, ho⟩, ⟨b, co, hw, hb⟩⟩ := hfr
    simp only at ho hw hb
    have hobj : s2.obj.is = s.obj.is ∧ s2.obj.os = s.obj.os ∧ s2.obj.searchPath = s.obj.searchPath ∧ s2.obj.imageTol = s.obj.imageTol := by
      rw [ho, ho1]; exact ⟨rfl, rfl, rfl, rfl⟩
    obtain ⟨q1, q2, q3, q4⟩ := hobj
    have hcr2 : ∀ g ∈ rest, s2.world.creatable g = true ∧ (s2.world.fs.stat g = none ∨ s2.world.fs.canRead g = true) := by
      intro g hg
      obtain ⟨d1, d2⟩ := hcr g (by simp [hg])
      rw [hw, hw1, hsave]
      refine ⟨d1, ?_⟩
      simp only [if_neg (hne g hg)]
      rcases d2 with d2 | d2
      · exact .inl d2
      · right
        rw [hcan]
        exact .inr d2
    have hinx : ∃ filesx', FilesOf ⟨a :: args, c + 1⟩ (xs.drop 1).length filesx' ∧ s2.obj.input = recordedImages (xs.drop 1) filesx' := by
      rw [hin2, hin]
      cases xs with
      | nil => exact ⟨[], rfl, rfl⟩
      | cons x xs =>
        obtain ⟨restx, rfl, hrx⟩ := files_cons a args xs.length c filesx hfx
        exact ⟨restx, hrx, rfl⟩
    obtain ⟨filesx', hfx', hin'⟩ := hinx
    obtain ⟨s', h1, h2⟩ := ih (xs.drop 1) (c + 1) rest filesx' s2 bytes (by simp at hn; omega) hrest hfx' (by rw [q1]; exact his) (by rw [q2]; exact hos) (by rw [q3]; exact hpath)
      hin' hcr2 (fun y hy => hys y (by simp [hy]))
    refine ⟨s', h1, ?_⟩
    rw [h2, q4]
    exact hun

/-- The command line of a run without options of the framework. -/
theorem parse_none (fs : FileSys) (fuel : Nat) (hfuel : 0 < fuel) (o : Obj) (prog : Str) (more : List Str) (hstop : Stops more) :
    parseArguments fs fuel o (prog :: more) = (o, .ok (prog :: more)) := by
  have := C35_options_removed fs fuel o prog [] more (by simp) (by simp) hstop (by simpa using hfuel)
  simpa [flat, lastValue, values] using this

/-- **C103.** When output and baseline are chosen by the program (`SetOutFileName`, `SetInFileName`) and both runs have the same arguments, the images of the
comparing run are written over the recorded ones, and each is compared with itself: the recorded images have no influence on the result. -/
theorem C103_same_arguments (I : Toolkit) (hI : Sound I) (enc : Image → Str) (dec : Str → Option Loaded) (hR : ReadsFiles I dec) (X : Expat) (hX : Conforms X)
    (env : Env) (henv : env.image = some I.imageEnv) (prog f : Str) (more : List Str) (hstop : Stops more) (hprog : ∀ c ∈ prog, Printable c ∧ c ≠ 47) (hf : f ≠ [])
    (fuel : Nat) (hfuel : 0 < fuel) (w : World) (hw : Comment (commentText w)) (it : ImgTol)
    (xs ys : List (Str × Image)) (hxn : xs.length ≤ 4294967296) (hyn : ys.length ≤ 4294967296) (hnames : ∀ x ∈ xs, ∀ c ∈ x.1, AttrChar c)
    (hys : ∀ y ∈ ys, Survives enc dec y.2) (files files' : List Str)
    (hfiles : FilesOf ⟨prog :: more, 0⟩ xs.length files) (hfiles' : FilesOf ⟨prog :: more, 0⟩ ys.length files') (hcreate : w.creatable (cstr f) = true)
    (hnew : w.fs.stat (cstr f) = none ∨ (w.fs.canRead (cstr f) = true ∧ w.fs.canWrite (cstr f) = true))
    (hcr : ∀ g ∈ files ++ files', w.creatable g = true ∧ (w.fs.stat g = none ∨ w.fs.canRead g = true)) (hown : cstr f ∉ files ++ files') (w1 : World)
    (hw1 : (main (withXML X env) (fun _ => imagesTest enc ⟨prog :: more, 0⟩ xs) fuel (prog :: more) ⟨{ imageTol := it, outFileName := f }, w⟩).1.world = w1) :
    (main (withXML X env) (fun _ => imagesTest enc ⟨prog :: more, 0⟩ xs) fuel (prog :: more) ⟨{ imageTol := it, outFileName := f }, w⟩).2 = .ok 0 ∧
    (main (withXML X env) (fun _ => imagesTest enc ⟨prog :: more, 0⟩ ys) fuel (prog :: more) ⟨{ imageTol := it, inFileName := f }, w1⟩).2 =
      .ok (unlikeImages I it (overwritten xs ys) ys) := by
  have hpr : ∀ c ∈ prog, Printable c := fun c hc => (hprog c hc).1
  have h0 : 0 ∉ prog := fun h => absurd (hpr 0 h) (by decide)
  have hsl : 47 ∉ prog := fun h => (hprog 47 h).2 rfl
  have hcr1 : ∀ g ∈ files, w.creatable g = true ∧ (w.fs.stat g = none ∨ w.fs.canRead g = true) := fun g hg => hcr g (by simp [hg])
  have hown1 : cstr f ∉ files := fun h => hown (by simp [h])
  have hown2 : cstr f ∉ files' := fun h => hown (by simp [h])
  obtain ⟨s', hmain, r1, r2, r3, himg, hc1, hother⟩ := record_run_images (withXML X env) enc prog f more _ h0 hf fuel w { imageTol := it, outFileName := f } [] it
    (parse_none w.fs fuel hfuel _ prog more hstop) xs hxn files hfiles hcreate hnew hcr1 hown1
  rw [hmain] at hw1 ⊢
  simp only at hw1
  subst hw1
  refine ⟨rfl, ?_⟩
  have hdoc : (withXML X env).readXML (header w ++ imageLines xs files ++ footer) = .ok (recordedImages xs files) := by
    rw [show (withXML X env).readXML = readXML X from rfl]
    exact read_images X hX w hw prog _ hpr xs hnames files hfiles
  have henv' : (withXML X env).image = some I.imageEnv := henv
  generalize withXML X env = env' at henv' hdoc ⊢
  generalize header w ++ imageLines xs files ++ footer = bytes at hdoc r3
  have hcr2 : ∀ g ∈ files', s'.world.creatable g = true ∧ (s'.world.fs.stat g = none ∨ s'.world.fs.canRead g = true) := by
    intro g hg
    obtain ⟨d1, d2⟩ := hcr g (by simp [hg])
    refine ⟨by rw [hc1]; exact d1, ?_⟩
    by_cases hm : g ∈ files
    · obtain ⟨i, hi, hgi⟩ := List.mem_iff_getElem.mp hm
      have hil : i < xs.length := by rw [← (files_eq prog _ _ _ _ hfiles).1]; exact hi
      have := himg i xs[i] g (by simp [hil]) (by rw [← hgi]; simp [hi])
      right
      have hgc : cstr g = g := by
        have e := (files_eq prog _ _ _ _ hfiles).2 i hil
        rw [List.getElem?_eq_getElem hi, Option.some.injEq, hgi] at e
        rw [e]
        exact fileAt_nul prog _ _ h0
      rw [World.openRead, hgc] at this
      by_contra hcan
      rw [if_neg (fun h => hcan h.2)] at this
      cases this
    · obtain ⟨e1, e2, -⟩ := hother g hm (fun h => hown2 (by rw [← h]; exact hg))
      rw [e1, e2]
      exact d2
  refine compare_run_images env' enc prog f more _ h0 hf fuel s'.world { imageTol := it, inFileName := f } [] it (parse_none _ fuel hfuel _ prog more hstop) ys hyn files' hfiles'
    hown2 (by simp) f bytes (by simp [searchPathList, Path.searchLoop]) r1 r2 r3 _ hdoc _ ?_
  exact compare_same I hI enc dec hR env' henv' prog more h0 hsl ys xs 0 files' files _ bytes hyn hfiles' hfiles rfl rfl rfl rfl hcr2 hys

/-- In particular the run passes, whatever the images are, when the names are the recorded ones and every image is like itself (which only fails for a
spacing or an origin that is not a number). -/
theorem C103_same_arguments_pass (I : Toolkit) (it : ImgTol) (xs ys : List (Str × Image)) (hnames : xs.map (·.1) = ys.map (·.1))
    (hself : ∀ y ∈ ys, Alike I it y.2 y.2) : unlikeImages I it (overwritten xs ys) ys = 0 := by
  induction ys generalizing xs with
  | nil => simp [unlikeImages]
  | cons y ys ih =>
    cases xs with
    | nil => simp at hnames
    | cons x xs =>
      simp only [List.map_cons, List.cons.injEq] at hnames
      simp only [overwritten, List.zipWith_cons_cons, unlikeImages]
      rw [if_pos ⟨hnames.1, hself y (by simp)⟩]
      simpa [overwritten] using ih xs hnames.2 (fun y hy => hself y (by simp [hy]))

end Verif.Itk
