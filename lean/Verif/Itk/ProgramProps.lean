import Verif.Itk.Program
import Verif.Itk.ProgramSpec
import Verif.Itk.DataDirProps

/-!
# Property C110: the program `itktfImageCompare`, from its arguments and files to its exit status
-/

set_option linter.unusedSimpArgs false

namespace Verif.Itk
open Spec Verif.Path Verif.Path.Spec Verif.Measurement Verif.Measurement.Spec Verif.Regression Verif.Regression.Spec Verif.Xml Verif.Xml.Spec

theorem last_baseName (name last : Str) (h : LastComponent name last) : last = baseName name := by
  obtain ⟨h1, rfl | ⟨d, rfl⟩⟩ := h
  · exact (baseName_id _ h1).symm
  · rw [show d ++ 47 :: last = (d ++ [47]) ++ last by simp, baseName_append _ _ h1]
    simp [baseName]

theorem baseName_last (name : Str) : LastComponent name (baseName name) := by
  refine ⟨baseName_slashless name, ?_⟩
  have key : ∀ p : Str, p.takeWhile (· ≠ (47 : UInt8)) = p ∨ ∃ d, p = p.takeWhile (· ≠ (47 : UInt8)) ++ 47 :: d := by
    intro p
    induction p with
    | nil => exact .inl rfl
    | cons c cs ih =>
      by_cases hc : c = 47
      · subst hc
        exact .inr ⟨cs, by simp⟩
      · rcases ih with h | ⟨d, h⟩
        · left; rw [List.takeWhile_cons, if_pos (by simpa using hc), h]
        · right
          refine ⟨d, ?_⟩
          rw [List.takeWhile_cons, if_pos (by simpa using hc), List.cons_append, ← h]
  rcases key name.reverse with h | ⟨d, h⟩
  · left
    rw [baseName, h, List.reverse_reverse]
  · right
    refine ⟨d.reverse, ?_⟩
    have := congrArg List.reverse h
    rw [List.reverse_reverse, List.reverse_append] at this
    rw [baseName]
    simpa using this

theorem located_lookedUp (w : World) (dirs : List Str) (hd : dirs ≠ []) (name last place : Str) (hl : LastComponent name last) (hne : last ≠ []) (h : LookedUp w.fs last dirs place) :
    located w dirs name = place := by
  have e := last_baseName _ _ hl
  subst e
  have hs := lookedUp_search _ _ _ _ hne h
  simp only [located]
  have hn : searchPathList w.fs (baseName name) dirs ≠ [] := by
    intro h0
    cases dirs with
    | nil => exact hd rfl
    | cons d ds =>
      obtain ⟨p, _, hp⟩ := (search_mem w.fs (baseName name) (d :: ds) []).resolve_left (by simp)
      rw [show Path.searchLoop w.fs (baseName name) (d :: ds) [] = [] from h0] at hp
      exact hne (append_empty p _ hp.symm)
  rw [if_neg hn] at hs ⊢
  exact hs

/-- A measurement that is not for the entry of the baseline. -/
theorem call_other (env : Env) (s : St) (bytes : Str) (his : s.obj.is = some bytes) (c : Call) (b : Meas) (rest : List Meas) (hin : s.obj.input = b :: rest)
    (hno : ¬ (b.name = c.meas.name ∧ b.type = c.meas.type)) :
    ∃ s', runCall env s c = (s', .ok 1) ∧ s'.obj.input = rest ∧ s'.obj.unmatched = s.obj.unmatched + 1 := by
  rw [runCall, compareMode_is his, if_pos rfl, compareMeasurement]
  simp only [hin]
  rw [if_neg hno]
  obtain ⟨t, ht, hl⟩ := renamed_print c (b!"Unmatched " ++ c.meas.name)
  simp only [unmatchedMeasurement, ht, Res.andThen]
  refine ⟨_, rfl, ?_, ?_⟩ <;> simp [emit_obj]

/-- An image that cannot be compared because one of the files cannot be read. -/
theorem call_unreadable (I : Toolkit) (env : Env) (dec : Str → Option Loaded) (hR : ReadsFiles I dec) (henv : env.image = some I.imageEnv)
    (s : St) (bytes : Str) (his : s.obj.is = some bytes) (f : FileM) (rest : List Meas) (hin : s.obj.input = .file f :: rest)
    (htype : f.type = b!"image/itk") (file place : Str) (hloc : located s.world s.obj.searchPath f.fileName = place)
    (hno : (s.world.openRead place).bind dec = none ∨ (s.world.openRead file).bind dec = none) :
    ∃ s' m, runCall env s (.fileITK file f.name) = (s', .error (.thrown m)) := by
  rw [runCall, compareMode_is his, if_pos rfl, compareMeasurement]
  simp only [hin]
  rw [if_pos ⟨rfl, by simp [Meas.type, htype, Call.meas]⟩]
  obtain ⟨b', hl, h1, h2, _, hb'⟩ := locate_eq { s with obj := { s.obj with input := rest } } (.file f) (Call.fileITK file f.name).meas
  simp only [Call.meas] at hb'
  subst hb'
  rw [hl]
  simp only [compareVisit, imagePair, henv, Call.meas, if_true, Toolkit.imageEnv, hloc]
  have hread : ∀ (c n : Str), I.read { s.world with cout := c } n = (s.world.openRead n).bind dec := fun c n => hR _ n
  have hcmp : Toolkit.compare I s.world s.obj.imageTol (cstr file) (cstr place) = false := by
    have h1 : I.read s.world (cstr place) = (s.world.openRead place).bind dec := by rw [hR, openRead_cstr]
    have h2 : I.read s.world (cstr file) = (s.world.openRead file).bind dec := by rw [hR, openRead_cstr]
    rcases hno with h | h
    · rw [h] at h1
      simp [Toolkit.compare, regressionTestImage, h1]
    · rw [h] at h2
      simp only [Toolkit.compare, regressionTestImage, h2]
      cases I.read s.world (cstr place) <;> simp
  rw [hcmp]
  simp only [Bool.false_eq_true, if_false, differenceMeasurement, imagePair, henv, if_true, St.toCout, Toolkit.imageEnv, Toolkit.differenceText, hread]
  cases ht : (s.world.openRead file).bind dec with
  | none => exact ⟨_, _, rfl⟩
  | some lt =>
    rcases hno with h | h
    · simp only [h]
      exact ⟨_, _, rfl⟩
    · rw [h] at ht; cases ht

/-! ## The loop over the arguments -/

/-- Nothing has changed but the counter, the baseline measurements left, the tolerances and standard output. -/
structure Near (s s' : St) : Prop where
  obj : ∃ u i t, s'.obj = { s.obj with unmatched := u, input := i, imageTol := t }
  world : s'.world.fs = s.world.fs ∧ s'.world.bytes = s.world.bytes

theorem Near.trans {a b c : St} (h : Near a b) (h' : Near b c) : Near a c := by
  obtain ⟨⟨u, i, t, e⟩, h1, h2⟩ := h
  obtain ⟨⟨u', i', t', e'⟩, h1', h2'⟩ := h'
  exact ⟨⟨u', i', t', by rw [e', e]⟩, by rw [h1', h1], by rw [h2', h2]⟩

theorem near_call (env : Env) (s : St) (t : ImgTol) (c : Call) (hos : s.obj.os = none) :
    Near s (runCall env { s with obj := { s.obj with imageTol := t } } c).1 := by
  obtain ⟨⟨u, i, ho⟩, b, co, hw, hb⟩ := frame_call env { s with obj := { s.obj with imageTol := t } } c
  refine ⟨⟨u, i, t, ho⟩, ?_⟩
  rw [hw]
  refine ⟨rfl, funext fun m => hb m ?_⟩
  intro o h
  rw [show ({ s with obj := { s.obj with imageTol := t } } : St).obj.os = s.obj.os from rfl, hos] at h
  cases h

theorem near_read (s s' : St) (h : Near s s') (n : Str) : s'.world.openRead n = s.world.openRead n := by
  simp only [World.openRead, h.world.1, h.world.2]

theorem loop_image (rd : Readers) (t : ImgTol) (n : Nat) (a : Str) (rest : List Str) (h : a.head? ≠ some 45) :
    imageLoop rd t n (a :: rest) = .setImageTolerance t (.call (.fileITK a (b!"ImageFile" ++ natText n)) fun _ => imageLoop rd t (n + 1) rest) := by
  rw [imageLoop.eq_def]
  simp only
  rw [if_neg h]

theorem loop_options (rd : Readers) (t : ImgTol) (n : Nat) (rest : List Str) :
    (∀ v x, rd.real v = some x → imageLoop rd t n (b!"--intensityTolerance" :: v :: rest) = imageLoop rd { t with intensity := x } n rest) ∧
    (∀ v x, rd.unsigned v = some x → imageLoop rd t n (b!"--numberOfPixelTolerance" :: v :: rest) = imageLoop rd { t with pixels := x } n rest) ∧
    (∀ v x, rd.unsigned v = some x → imageLoop rd t n (b!"--radiusTolerance" :: v :: rest) = imageLoop rd { t with radius := x } n rest) := by
  refine ⟨fun v x h => ?_, fun v x h => ?_, fun v x h => ?_⟩
  · rw [imageLoop, if_pos (by decide), if_pos rfl]; simp only [h]
  · rw [imageLoop, if_pos (by decide), if_neg (by decide), if_pos rfl]; simp only [h]
  · rw [imageLoop, if_pos (by decide), if_neg (by decide), if_neg (by decide), if_pos rfl]; simp only [h]

/-- What a row of images does in a comparing run. -/
def Does (env : Env) (p : Prog) (s : St) : Option Nat → Prop
  | some n => ∃ s', runProg env p s = (s', .ok 0) ∧ s'.obj.unmatched = s.obj.unmatched + n ∧ Near s s'
  | none => ∃ s' m, runProg env p s = (s', .error (.thrown m)) ∧ Near s s'

theorem does_then (env : Env) (c : Call) (k : Int → Prog) (t : ImgTol) (s s1 : St) (v : Int) (d : Nat) (r : Option Nat)
    (hc : runCall env { s with obj := { s.obj with imageTol := t } } c = (s1, .ok v)) (hn : Near s s1) (hu : s1.obj.unmatched = s.obj.unmatched + d) (h : Does env (k v) s1 r) :
    Does env (.setImageTolerance t (.call c k)) s (r.map (· + d)) := by
  have hrun : runProg env (.setImageTolerance t (.call c k)) s = runProg env (k v) s1 := by simp only [runProg, hc]
  cases r with
  | none =>
    obtain ⟨s', m, h1, h2⟩ := h
    exact ⟨s', m, by rw [hrun, h1], hn.trans h2⟩
  | some n =>
    obtain ⟨s', h1, h2, h3⟩ := h
    refine ⟨s', by rw [hrun, h1], ?_, hn.trans h3⟩
    rw [h2, hu]
    push_cast
    omega

/-- The images one after the other, in a comparing run. -/
theorem loop_found (I : Toolkit) (hI : Sound I) (env : Env) (dec : Str → Option Loaded) (hR : ReadsFiles I dec) (henv : env.image = some I.imageEnv) (rd : Readers)
    (w : World) (dirs : List Str) (hd : dirs ≠ []) (bytes : Str) (t : ImgTol) (args : List Str) (l : List (ImgTol × Str)) (hl : Reads rd.real rd.unsigned t args l) :
    ∀ (i : Nat) (bs : List Meas) (r : Option Nat), Found I w dirs i bs l r → ∀ s : St, s.obj.is = some bytes → s.obj.os = none → s.obj.input = bs → s.obj.searchPath = dirs →
      s.world.fs = w.fs → s.world.bytes = w.bytes → Does env (imageLoop rd t i args) s r := by
  induction hl with
  | done t =>
    intro i bs r h s _ _ _ _ _ _
    cases h
    exact ⟨s, by rw [imageLoop, runProg], by simp, ⟨⟨_, _, _, rfl⟩, rfl, rfl⟩⟩
  | intensity t v x rest l h1 h2 ih => intro i; rw [(loop_options rd t _ rest).1 v x h1]; exact ih i
  | pixels t v x rest l h1 h2 ih => intro i; rw [(loop_options rd t _ rest).2.1 v x h1]; exact ih i
  | radius t v x rest l h1 h2 ih => intro i; rw [(loop_options rd t _ rest).2.2 v x h1]; exact ih i
  | image t a rest l h1 h2 ih =>
    intro i bs r h s his hos hin hsp hfs hby
    rw [loop_image rd t i a rest h1]
    have hnear := near_call env s t (.fileITK a (b!"ImageFile" ++ natText i)) hos
    have hopen : ∀ n, s.world.openRead n = w.openRead n := fun n => by simp only [World.openRead, hfs, hby]
    have next : ∀ (s1 : St) (v : Int) (d : Nat) (bs' : List Meas) (r' : Option Nat),
        runCall env { s with obj := { s.obj with imageTol := t } } (.fileITK a (b!"ImageFile" ++ natText i)) = (s1, .ok v) → s1.obj.input = bs' →
        s1.obj.unmatched = s.obj.unmatched + d → Found I w dirs (i + 1) bs' l r' →
        Does env (.setImageTolerance t (.call (.fileITK a (b!"ImageFile" ++ natText i)) fun _ => imageLoop rd t (i + 1) rest)) s (r'.map (· + d)) := by
      intro s1 v d bs' r' hc hin' hu hf
      rw [hc] at hnear
      obtain ⟨⟨u, j, t', ho⟩, n1, n2⟩ := hnear
      exact does_then env _ _ t s s1 v d r' hc ⟨⟨u, j, t', ho⟩, n1, n2⟩ hu
        (ih (i + 1) bs' r' hf s1 (by rw [ho]; exact his) (by rw [ho]; exact hos) hin' (by rw [ho]; exact hsp) (by rw [n1, hfs]) (by rw [n2, hby]))
    cases h with
    | noEntry _ _ _ r' hf =>
      have hc := runCall_named env { s with obj := { s.obj with imageTol := t } } (.fileITK a (b!"ImageFile" ++ natText i)) (compareMode_is (b := bytes) his) hin
      exact next _ _ 1 [] r' hc (by rw [emit_obj]; exact hin) (by rw [emit_obj]; rfl) hf
    | otherEntry _ b bs' _ _ r' hno hf =>
      obtain ⟨s1, hc, h2, h3⟩ := call_other env { s with obj := { s.obj with imageTol := t } } bytes his (.fileITK a (b!"ImageFile" ++ natText i)) b bs' hin (by
        rintro ⟨e1, e2⟩
        apply hno
        cases b with
        | data d =>
          exfalso
          revert e2
          simp only [Meas.type, Call.meas]
          cases d.kind with
          | num k => cases k <;> decide
          | _ => decide
        | file f => exact ⟨f.fileName, f, rfl, e1, e2, rfl⟩)
      exact next s1 _ 1 bs' r' hc h2 h3 hf
    | alike _ b bs' _ _ _ r' recorded last place v x hnm hlast hne hlk hv hx hal hf =>
      obtain ⟨f, rfl, f1, f2, f3⟩ := hnm
      have hloc : located s.world s.obj.searchPath f.fileName = place := by
        rw [hsp, f3]
        exact located_lookedUp s.world dirs hd recorded last place hlast hne (by rw [hfs]; exact hlk)
      obtain ⟨s1, v1, hc, h2, h3⟩ := image_call I hI dec hR env henv { s with obj := { s.obj with imageTol := t } } bytes his a (b!"ImageFile" ++ natText i) f bs' hin f2 x v
        (by show (s.world.openRead a).bind dec = some x; rw [hopen, ← hR]; exact hx)
        (by show (s.world.openRead (located s.world s.obj.searchPath f.fileName)).bind dec = some v; rw [hloc, hopen, ← hR]; exact hv)
      simp only [if_pos (And.intro f1 hal)] at h3
      have := next s1 v1 0 bs' r hc h2 (by rw [h3]; rfl) hf
      simpa using this
    | unlike _ b bs' _ _ _ r' recorded last place v x hnm hlast hne hlk hv hx hal hf =>
      obtain ⟨f, rfl, f1, f2, f3⟩ := hnm
      have hloc : located s.world s.obj.searchPath f.fileName = place := by
        rw [hsp, f3]
        exact located_lookedUp s.world dirs hd recorded last place hlast hne (by rw [hfs]; exact hlk)
      obtain ⟨s1, v1, hc, h2, h3⟩ := image_call I hI dec hR env henv { s with obj := { s.obj with imageTol := t } } bytes his a (b!"ImageFile" ++ natText i) f bs' hin f2 x v
        (by show (s.world.openRead a).bind dec = some x; rw [hopen, ← hR]; exact hx)
        (by show (s.world.openRead (located s.world s.obj.searchPath f.fileName)).bind dec = some v; rw [hloc, hopen, ← hR]; exact hv)
      simp only [if_neg (fun h : f.name = _ ∧ Alike I t v.image x.image => hal h.2)] at h3
      exact next s1 v1 1 bs' r' hc h2 h3 hf
    | unreadable _ b bs' _ _ _ recorded last place hnm hlast hne hlk hno =>
      obtain ⟨f, rfl, f1, f2, f3⟩ := hnm
      have hloc : located s.world s.obj.searchPath f.fileName = place := by
        rw [hsp, f3]
        exact located_lookedUp s.world dirs hd recorded last place hlast hne (by rw [hfs]; exact hlk)
      obtain ⟨s1, m, hc⟩ := call_unreadable I env dec hR henv { s with obj := { s.obj with imageTol := t } } bytes his f bs' hin f2 a place hloc (by
        rw [hR, hR] at hno
        show (s.world.openRead place).bind dec = none ∨ (s.world.openRead a).bind dec = none
        rw [hopen, hopen]
        exact hno)
      rw [f1] at hc
      rw [hc] at hnear
      exact ⟨s1, m, by simp only [runProg, hc], hnear⟩

theorem reads_stop (real : Str → Option ℚ) (unsigned : Str → Option Nat) (t : ImgTol) (args : List Str) (l : List (ImgTol × Str)) (h : Reads real unsigned t args l) : Stops args := by
  intro x hx ho
  cases h with
  | done => cases hx
  | intensity => cases hx; revert ho; simp [IsOption]
  | pixels => cases hx; revert ho; simp [IsOption]
  | radius => cases hx; revert ho; simp [IsOption]
  | image _ a _ _ h _ =>
    cases hx
    rcases ho with rfl | rfl | rfl | rfl <;> exact h rfl

/-- **C110.** The program with a baseline, for every command line of accepted options without an output file and every list of images and tolerances: it returns the number of images that do not pass
the comparison with their entry, or -1 if one of the images to be compared cannot be read.  The baseline and the recorded images are looked up in the directories of `-P` and the data directory. -/
theorem C110_compare (I : Toolkit) (hI : Sound I) (env : Env) (dec : Str → Option Loaded) (hR : ReadsFiles I dec) (henv : env.image = some I.imageEnv) (rd : Readers) (dataDir : Str)
    (fuel : Nat) (w : World) (prog : Str) (ps : List (Str × Str)) (args : List Str) (hopt : ∀ p ∈ ps, IsOption p.1) (href : ∀ p ∈ ps, ¬ Refused w.fs p) (hfuel : ps.length < fuel)
    (name file bytes : Str) (bs : List Meas) (hi : lastValue b!"-I" ps = some name) (hn : name ≠ []) (ho : lastValue b!"-O" ps = none) (hr : lastValue b!"-R" ps = none)
    (hfile : LookedUp w.fs name ((values b!"-P" ps).reverse ++ [dataDir]) file) (hopen : w.openRead file = some bytes) (hxml : env.readXML bytes = .ok bs)
    (l : List (ImgTol × Str)) (hl : Reads rd.real rd.unsigned {} args l) (r : Option Nat) (hfound : Found I w ((values b!"-P" ps).reverse ++ [dataDir]) 0 bs l r) :
    (imageCompare env rd dataDir fuel (prog :: (flat ps ++ args)) w).2 = .ok (match r with | some n => (n : Int) | none => -1) := by
  have hstop := reads_stop _ _ _ _ _ hl
  have hlook := lookedUp_search _ _ _ _ hn hfile
  obtain ⟨s1, e1, e0, e2, e3, e4, e5, e6, e7, e8, e9, e10, e11⟩ := (C107_baseline_file env (imageTest rd) fuel ⟨itkObject dataDir, w⟩ prog ps args hopt href hstop hfuel name file hi hn ho rfl
    (by simpa [itkObject] using hfile)).2 bytes bs hopen hxml
  have he7 : s1.obj.searchPath = (values b!"-P" ps).reverse ++ [dataDir] := by rw [e7]; simp [itkObject]
  have he8 : s1.obj.expected = 0 := by rw [e8, hr]; rfl
  have hdoes := loop_found I hI env dec hR henv rd w _ (by simp) bytes {} args l hl 0 bs r hfound s1 e6 (by rw [e0]; rfl) e2 he7 (by rw [e1]) (by rw [e1])
  cases r with
  | none =>
    obtain ⟨s', m, hrun, ⟨u, i, t, ho'⟩, -⟩ := hdoes
    rw [show imageTest rd (prog :: args) = imageLoop rd {} 0 args from rfl, hrun] at e11
    refine (C38_exception_value env (imageTest rd) fuel _ _ _ _ _ e11).2.2.1 ?_
    rw [ho']
    show s1.obj.expected ≠ -1
    rw [he8]; decide
  | some n =>
    obtain ⟨s', hrun, hu, ⟨u, i, t, ho'⟩, hfs, -⟩ := hdoes
    rw [show imageTest rd (prog :: args) = imageLoop rd {} 0 args from rfl, hrun] at e11
    have hcm : s'.compareMode = true := compareMode_is (b := bytes) (by rw [ho']; exact e6)
    have hreg : w.fs.stat (cstr file) = some .regular ∧ w.fs.canRead (cstr file) = true := by
      simp only [World.openRead] at hopen
      split at hopen
      · assumption
      · cases hopen
    have hpres : baselinePresent { s'.obj with input := [], os := none, is := none, unmatched := s'.obj.unmatched - 1 } s'.world.fs := by
      have h1 : s'.obj.inFileName = name ∧ s'.obj.searchPath = (values b!"-P" ps).reverse ++ [dataDir] := by rw [ho']; exact ⟨e5, he7⟩
      refine ⟨by rw [h1.1]; exact hn, ?_⟩
      simp only
      rw [h1.1, h1.2, hfs, e1, hlook]
      simp [isFile, isReadable, isDirectory, hreg]
    have hcm2 : St.compareMode ⟨{ s'.obj with input := [], os := none, is := none, unmatched := s'.obj.unmatched - 1 }, s'.world⟩ = true :=
      (compareMode_noStream _ rfl).mpr hpres
    have hexp : s'.obj.expected = 0 := by rw [ho']; exact he8
    simp only [imageCompare, main, e11, mainValue, endMeasurement, hcm, if_true]
    rw [if_neg (by simp [hexp]), if_pos hcm2, hu, e4]
    simp only [itkObject]
    congr 1
    omega

theorem last_unique (name a b : Str) (h : LastComponent name a) (h' : LastComponent name b) : a = b := by
  rw [last_baseName _ _ h, last_baseName _ _ h']

theorem lookedUp_unique (fs : FileSys) (name : Str) (hn : name ≠ []) (dirs : List Str) (a b : Str) (h : LookedUp fs name dirs a) (h' : LookedUp fs name dirs b) : a = b := by
  rw [← lookedUp_search _ _ _ _ hn h, ← lookedUp_search _ _ _ _ hn h']

theorem names_unique (i : Nat) (b : Meas) (x y : Str) (h : NamesImage i b x) (h' : NamesImage i b y) : x = y := by
  obtain ⟨f, rfl, -, -, rfl⟩ := h
  obtain ⟨g, hg, -, -, rfl⟩ := h'
  cases hg
  rfl

/-- **C110.** There is one finding for every baseline, if the entries for images name files, and every list of images. -/
theorem C110_one_finding (I : Toolkit) (w : World) (dirs : List Str) : ∀ (l : List (ImgTol × Str)) (i : Nat) (bs : List Meas),
    (∀ b ∈ bs, ∀ j file, NamesImage j b file → ¬ LastComponent file []) →
    ∃ r, Found I w dirs i bs l r ∧ ∀ r', Found I w dirs i bs l r' → r' = r
  | [], i, bs, _ => ⟨some 0, .done i bs, fun r' h => by cases h; rfl⟩
  | y :: l, i, [], hb => by
    obtain ⟨r, h1, h2⟩ := C110_one_finding I w dirs l (i + 1) [] hb
    exact ⟨_, .noEntry i y l r h1, fun r' h => by cases h with | noEntry _ _ _ _ h => rw [h2 _ h]⟩
  | (t, file) :: l, i, b :: bs, hb => by
    obtain ⟨r, h1, h2⟩ := C110_one_finding I w dirs l (i + 1) bs (fun b' h => hb b' (by simp [h]))
    by_cases hnm : ∃ recorded, NamesImage i b recorded
    swap
    · refine ⟨_, .otherEntry i b bs _ l r hnm h1, fun r' h => ?_⟩
      cases h with
      | otherEntry _ _ _ _ _ _ _ h => rw [h2 _ h]
      | alike _ _ _ _ _ _ _ n _ _ _ _ h => exact absurd ⟨n, h⟩ hnm
      | unlike _ _ _ _ _ _ _ n _ _ _ _ h => exact absurd ⟨n, h⟩ hnm
      | unreadable _ _ _ _ _ _ n _ _ h => exact absurd ⟨n, h⟩ hnm
    obtain ⟨recorded, hnm⟩ := hnm
    have hlast := baseName_last recorded
    have hne : baseName recorded ≠ [] := fun he => hb b (by simp) i recorded hnm (he ▸ hlast)
    obtain ⟨place, hlk, -⟩ := C107_one_place w.fs (baseName recorded) hne dirs
    have same : ∀ n last place', NamesImage i b n → LastComponent n last → LookedUp w.fs last dirs place' → place' = place := by
      intro n last place' g1 g2 g3
      have e1 := names_unique i b _ _ g1 hnm
      subst e1
      have e2 := last_unique _ _ _ g2 hlast
      subst e2
      exact lookedUp_unique _ _ hne _ _ _ g3 hlk
    by_cases hno : I.read w place = none ∨ I.read w file = none
    · refine ⟨none, .unreadable i b bs t file l recorded _ place hnm hlast hne hlk hno, fun r' h => ?_⟩
      cases h with
      | otherEntry _ _ _ _ _ _ h _ => exact absurd ⟨_, hnm⟩ h
      | alike _ _ _ _ _ _ _ n last p v x g1 g2 g3 g4 g5 g6 =>
        have e := same n last p g1 g2 g4
        subst e
        rcases hno with h | h
        · rw [h] at g5; cases g5
        · rw [h] at g6; cases g6
      | unlike _ _ _ _ _ _ _ n last p v x g1 g2 g3 g4 g5 g6 =>
        have e := same n last p g1 g2 g4
        subst e
        rcases hno with h | h
        · rw [h] at g5; cases g5
        · rw [h] at g6; cases g6
      | unreadable => rfl
    obtain ⟨hv, hx⟩ := not_or.mp hno
    obtain ⟨v, hv⟩ := Option.ne_none_iff_exists'.mp hv
    obtain ⟨x, hx⟩ := Option.ne_none_iff_exists'.mp hx
    by_cases hal : Alike I t v.image x.image
    · refine ⟨r, .alike i b bs t file l r recorded _ place v x hnm hlast hne hlk hv hx hal h1, fun r' h => ?_⟩
      cases h with
      | otherEntry _ _ _ _ _ _ h _ => exact absurd ⟨_, hnm⟩ h
      | alike _ _ _ _ _ _ _ n last p v x g1 g2 g3 g4 g5 g6 g7 g8 => exact h2 _ g8
      | unlike _ _ _ _ _ _ _ n last p v x g1 g2 g3 g4 g5 g6 g7 =>
        have e := same n last p g1 g2 g4
        subst e
        rw [hv] at g5
        rw [hx] at g6
        cases g5
        cases g6
        exact absurd hal g7
      | unreadable _ _ _ _ _ _ n last p g1 g2 g3 g4 g5 =>
        have e := same n last p g1 g2 g4
        subst e
        rw [hv, hx] at g5
        simp at g5
    · refine ⟨_, .unlike i b bs t file l r recorded _ place v x hnm hlast hne hlk hv hx hal h1, fun r' h => ?_⟩
      cases h with
      | otherEntry _ _ _ _ _ _ h _ => exact absurd ⟨_, hnm⟩ h
      | unlike _ _ _ _ _ _ _ n last p v x g1 g2 g3 g4 g5 g6 g7 g8 => rw [h2 _ g8]
      | alike _ _ _ _ _ _ _ n last p v x g1 g2 g3 g4 g5 g6 g7 =>
        have e := same n last p g1 g2 g4
        subst e
        rw [hv] at g5
        rw [hx] at g6
        cases g5
        cases g6
        exact absurd g7 hal
      | unreadable _ _ _ _ _ _ n last p g1 g2 g3 g4 g5 =>
        have e := same n last p g1 g2 g4
        subst e
        rw [hv, hx] at g5
        simp at g5

theorem found_passes (I : Toolkit) (w : World) (dirs : List Str) (i : Nat) (bs : List Meas) (l : List (ImgTol × Str)) (r : Option Nat) (h : Found I w dirs i bs l r) :
    r = some 0 ↔ ∀ (k : Nat) (t : ImgTol) (file : Str), l[k]? = some (t, file) → ∃ b recorded last place v x, bs[k]? = some b ∧ NamesImage (i + k) b recorded ∧ LastComponent recorded last ∧
      LookedUp w.fs last dirs place ∧ I.read w place = some v ∧ I.read w file = some x ∧ Alike I t v.image x.image := by
  have hs : ∀ r : Option Nat, r.map (· + 1) ≠ some 0 := by intro r h; cases r <;> simp at h
  induction h with
  | done i bs => simp
  | noEntry i y l r _ _ =>
    refine ⟨fun h => absurd h (hs r), fun h => ?_⟩
    obtain ⟨b, _, _, _, _, _, hb, _⟩ := h 0 y.1 y.2 rfl
    cases hb
  | otherEntry i b bs y l r hno _ _ =>
    refine ⟨fun h => absurd h (hs r), fun h => ?_⟩
    obtain ⟨b', n, _, _, _, _, hb, hn, _⟩ := h 0 y.1 y.2 rfl
    cases hb
    exact absurd ⟨n, hn⟩ hno
  | alike i b bs t file l r n last place v x h1 h2 h3 h4 h5 h6 h7 _ ih =>
    refine Iff.trans ih ?_
    constructor
    · intro h k
      cases k with
      | zero =>
        intro t' file' e
        cases e
        exact ⟨b, n, last, place, v, x, rfl, h1, h2, h4, h5, h6, h7⟩
      | succ k =>
        intro t' file' e
        obtain ⟨b', n', l', p', v', x', g1, g2, g3⟩ := h k t' file' e
        exact ⟨b', n', l', p', v', x', g1, by rw [show i + (k + 1) = i + 1 + k by omega]; exact g2, g3⟩
    · intro h k t' file' e
      obtain ⟨b', n', l', p', v', x', g1, g2, g3⟩ := h (k + 1) t' file' e
      exact ⟨b', n', l', p', v', x', g1, by rw [show i + 1 + k = i + (k + 1) by omega]; exact g2, g3⟩
  | unlike i b bs t file l r n last place v x h1 h2 h3 h4 h5 h6 h7 _ _ =>
    refine ⟨fun h => absurd h (hs r), fun h => ?_⟩
    obtain ⟨b', n', l', p', v', x', g1, g2, g3, g4, g5, g6, g7⟩ := h 0 t file rfl
    cases g1
    have e1 := names_unique _ _ _ _ g2 h1
    subst e1
    have e2 := last_unique _ _ _ g3 h2
    subst e2
    have e3 := lookedUp_unique _ _ h3 _ _ _ g4 h4
    subst e3
    rw [h5] at g5
    rw [h6] at g6
    cases g5
    cases g6
    exact absurd g7 h7
  | unreadable i b bs t file l n last place h1 h2 h3 h4 h5 =>
    refine ⟨fun h => (nomatch h), fun h => ?_⟩
    obtain ⟨b', n', l', p', v', x', g1, g2, g3, g4, g5, g6, g7⟩ := h 0 t file rfl
    cases g1
    have e1 := names_unique _ _ _ _ g2 h1
    subst e1
    have e2 := last_unique _ _ _ g3 h2
    subst e2
    have e3 := lookedUp_unique _ _ h3 _ _ _ g4 h4
    subst e3
    rw [g5, g6] at h5
    simp at h5

/-- **C110.** The program returns 0 exactly if every image passes, whatever the baseline holds otherwise (if its entries for images name files). -/
theorem C110_passes (I : Toolkit) (hI : Sound I) (env : Env) (dec : Str → Option Loaded) (hR : ReadsFiles I dec) (henv : env.image = some I.imageEnv) (rd : Readers) (dataDir : Str)
    (fuel : Nat) (w : World) (prog : Str) (ps : List (Str × Str)) (args : List Str) (hopt : ∀ p ∈ ps, IsOption p.1) (href : ∀ p ∈ ps, ¬ Refused w.fs p) (hfuel : ps.length < fuel)
    (name file bytes : Str) (bs : List Meas) (hi : lastValue b!"-I" ps = some name) (hn : name ≠ []) (ho : lastValue b!"-O" ps = none) (hr : lastValue b!"-R" ps = none)
    (hfile : LookedUp w.fs name ((values b!"-P" ps).reverse ++ [dataDir]) file) (hopen : w.openRead file = some bytes) (hxml : env.readXML bytes = .ok bs)
    (hbs : ∀ b ∈ bs, ∀ j file, NamesImage j b file → ¬ LastComponent file []) (l : List (ImgTol × Str)) (hl : Reads rd.real rd.unsigned {} args l) :
    (imageCompare env rd dataDir fuel (prog :: (flat ps ++ args)) w).2 = .ok 0 ↔ AllPass I w ((values b!"-P" ps).reverse ++ [dataDir]) bs l := by
  obtain ⟨r, h, -⟩ := C110_one_finding I w ((values b!"-P" ps).reverse ++ [dataDir]) l 0 bs hbs
  rw [C110_compare I hI env dec hR henv rd dataDir fuel w prog ps args hopt href hfuel name file bytes bs hi hn ho hr hfile hopen hxml l hl r h]
  have := found_passes I w _ 0 bs l r h
  simp only [Nat.zero_add] at this
  rw [AllPass, ← this]
  cases r with
  | none => simp
  | some n => simp

/-- **C110, negative.** With a baseline without entries every image fails, whatever it is and even if it cannot be read; but with 256 images, or a multiple, the program exits with success. -/
theorem C110_no_entries (I : Toolkit) (hI : Sound I) (env : Env) (dec : Str → Option Loaded) (hR : ReadsFiles I dec) (henv : env.image = some I.imageEnv) (rd : Readers) (dataDir : Str)
    (fuel : Nat) (w : World) (prog : Str) (ps : List (Str × Str)) (args : List Str) (hopt : ∀ p ∈ ps, IsOption p.1) (href : ∀ p ∈ ps, ¬ Refused w.fs p) (hfuel : ps.length < fuel)
    (name file bytes : Str) (hi : lastValue b!"-I" ps = some name) (hn : name ≠ []) (ho : lastValue b!"-O" ps = none) (hr : lastValue b!"-R" ps = none)
    (hfile : LookedUp w.fs name ((values b!"-P" ps).reverse ++ [dataDir]) file) (hopen : w.openRead file = some bytes) (hxml : env.readXML bytes = .ok [])
    (l : List (ImgTol × Str)) (hl : Reads rd.real rd.unsigned {} args l) :
    (imageCompare env rd dataDir fuel (prog :: (flat ps ++ args)) w).2 = .ok l.length ∧ (exitStatus l.length = 0 ↔ 256 ∣ l.length) := by
  have key : ∀ (l : List (ImgTol × Str)) (i : Nat), Found I w ((values b!"-P" ps).reverse ++ [dataDir]) i [] l (some l.length) := by
    intro l
    induction l with
    | nil => intro i; exact .done i []
    | cons y l ih => intro i; exact .noEntry i y l _ (ih (i + 1))
  refine ⟨C110_compare I hI env dec hR henv rd dataDir fuel w prog ps args hopt href hfuel name file bytes [] hi hn ho hr hfile hopen hxml l hl _ (key l 0), ?_⟩
  rw [exitStatus]
  omega

theorem loop_settled (rd : Readers) : ∀ (m : Nat) (t : ImgTol) (n : Nat) (args : List Str), args.length ≤ m → Regression.Spec.Settled (imageLoop rd t n args) ∧ ∀ os, Keeps os (imageLoop rd t n args) := by
  intro m
  induction m with
  | zero =>
    intro t n args h
    have : args = [] := List.length_eq_zero_iff.mp (by omega)
    subst this
    rw [imageLoop]
    exact ⟨trivial, fun _ => trivial⟩
  | succ m ih =>
    intro t n args h
    cases args with
    | nil => rw [imageLoop]; exact ⟨trivial, fun _ => trivial⟩
    | cons a rest =>
      simp only [List.length_cons] at h
      rw [imageLoop.eq_def]
      simp only
      repeat' split
      all_goals first
        | exact ⟨trivial, fun _ => trivial⟩
        | (simp only [List.length_cons] at h; exact ih _ _ _ (by omega))
        | exact ⟨fun _ => (ih _ _ _ (by omega)).1, fun os _ => (ih _ _ _ (by omega)).2 os⟩

/-- **C110.** With arguments that are no images and tolerances the program does not return 0, for every command line of options the test does not make to be expected (`-R`) and every state of the
files, recording or comparing: it returns 1, or -1 if something throws before. -/
theorem C110_bad_arguments (env : Env) (rd : Readers) (dataDir : Str) (fuel : Nat) (w : World) (prog : Str) (ps : List (Str × Str)) (args : List Str)
    (hopt : ∀ p ∈ ps, IsOption p.1) (href : ∀ p ∈ ps, ¬ Refused w.fs p) (hstop : Stops args) (hfuel : ps.length < fuel) (hr : lastValue b!"-R" ps = none)
    (hbad : ¬ ∃ l, Reads rd.real rd.unsigned {} args l) (v : Int) (hv : (imageCompare env rd dataDir fuel (prog :: (flat ps ++ args)) w).2 = .ok v) : v = 1 ∨ v = -1 := by
  have hstay := (C46_options_stay env (imageTest rd) fuel ⟨itkObject dataDir, w⟩ prog ps args hopt href hstop hfuel (loop_settled rd _ _ _ _ (Nat.le_refl _)).1).1
  rw [hr] at hstay
  simp only at hstay
  have hret : ∀ s' ret f, tryBlock env (imageTest rd) fuel (prog :: (flat ps ++ args)) ⟨itkObject dataDir, w⟩ = (s', ret, f) → ret = 1 ∨ ret = -1 := by
    intro s' ret f h
    rw [tryBlock] at h
    simp only at h
    rw [C35_options_removed w.fs fuel _ prog ps args hopt href hstop hfuel] at h
    simp only at h
    split at h
    · cases h; exact .inr rfl
    · next s1 _ =>
      split at h
      · cases h; exact .inr rfl
      · next s2 v hrun =>
        cases h
        exact .inl (C73_bad_arguments rd env prog args hbad s1 _ (by rw [hrun]))
  rcases ht : tryBlock env (imageTest rd) fuel (prog :: (flat ps ++ args)) ⟨itkObject dataDir, w⟩ with ⟨s', ret, f⟩
  have hh := hret _ _ _ ht
  have hval : ∀ s : St, s.obj.expected = 0 → mainValue s ret = ret := by
    intro s he
    rw [mainValue, if_pos]
    rw [he]
    rcases hh with rfl | rfl <;> decide
  simp only [imageCompare, main, ht] at hv hstay
  rcases f with _ | ⟨m⟩ | _ | _ <;> simp only [Except.ok.injEq, reduceCtorEq] at hv hstay
  all_goals
    rw [hval s' hstay] at hv
    rw [← hv]
    exact hh

/-! ## Recording -/

/-- The images one after the other, in a recording run. -/
theorem loop_record (env : Env) (rd : Readers) (t : ImgTol) (args : List Str) (l : List (ImgTol × Str)) (hl : Reads rd.real rd.unsigned t args l) :
    ∀ (i : Nat) (s : St), s.obj.is = none → s.obj.inFileName = [] → ∃ s', runProg env (imageLoop rd t i args) s = (s', .ok 0) ∧ s'.world.fs = s.world.fs ∧
      ∀ m, (∀ o, s.obj.os = some o → m ≠ cstr o) → s'.world.bytes m = s.world.bytes m := by
  induction hl with
  | done t =>
    intro i s _ _
    exact ⟨s, by rw [imageLoop, runProg], rfl, fun _ _ => rfl⟩
  | intensity t v x rest l h1 h2 ih => intro i; rw [(loop_options rd t _ rest).1 v x h1]; exact ih i
  | pixels t v x rest l h1 h2 ih => intro i; rw [(loop_options rd t _ rest).2.1 v x h1]; exact ih i
  | radius t v x rest l h1 h2 ih => intro i; rw [(loop_options rd t _ rest).2.2 v x h1]; exact ih i
  | image t a rest l h1 h2 ih =>
    intro i s his hin
    rw [loop_image rd t i a rest h1]
    have hc := Xml.runCall_record env { s with obj := { s.obj with imageTol := t } } (.fileITK a (b!"ImageFile" ++ natText i)) his hin
    obtain ⟨-, b, co, hw, hb⟩ := frame_emit { s with obj := { s.obj with imageTol := t } } (line (recordedMeas (.fileITK a (b!"ImageFile" ++ natText i))))
    obtain ⟨s1, hs1⟩ : ∃ s1, s1 = St.emit { s with obj := { s.obj with imageTol := t } } (line (recordedMeas (.fileITK a (b!"ImageFile" ++ natText i)))) := ⟨_, rfl⟩
    rw [← hs1] at hc hw
    have ho1 : s1.obj = { s.obj with imageTol := t } := by rw [hs1, emit_obj]
    obtain ⟨s', e1, e2, e3⟩ := ih (i + 1) s1 (by rw [ho1]; exact his) (by rw [ho1]; exact hin)
    refine ⟨s', by simp only [runProg, hc]; exact e1, ?_, fun m hm => ?_⟩
    · rw [e2, hw]
    · rw [e3 m (by rw [ho1]; exact hm), hw]
      exact hb m hm

theorem entries_lines : ∀ (l : List (ImgTol × Str)) (i : Nat) (bs : List Meas), Entries i (l.map (·.2)) bs →
    bs = ((l.zipIdx i).map fun ((_, f), j) => Call.fileITK f (b!"ImageFile" ++ natText j)).map recordedMeas
  | [], _, _, h => h
  | (t, file) :: l, i, bs, h => by
    obtain ⟨last, rest, h1, rfl, h2⟩ := h
    have e := last_baseName _ _ h1
    subst e
    rw [entries_lines l (i + 1) rest h2]
    rfl

theorem entries_exist : ∀ (files : List Str) (i : Nat), ∃ bs, Entries i files bs
  | [], _ => ⟨[], rfl⟩
  | file :: files, i => by
    obtain ⟨bs, h⟩ := entries_exist files (i + 1)
    exact ⟨_, _, _, baseName_last file, rfl, h⟩

/-- **C110.** The program recording, for every command line of accepted options without a baseline: it returns 0, and the document holds an entry for each image with the last component of its
name, whatever the images are and whether they exist or not; no other file is changed. -/
theorem C110_record (env : Env) (rd : Readers) (dataDir : Str) (fuel : Nat) (w : World) (prog : Str) (ps : List (Str × Str)) (args : List Str) (hopt : ∀ p ∈ ps, IsOption p.1)
    (href : ∀ p ∈ ps, ¬ Refused w.fs p) (hfuel : ps.length < fuel) (f : Str) (ho : lastValue b!"-O" ps = some f) (hf : f ≠ []) (hi : lastValue b!"-I" ps = none)
    (hr : lastValue b!"-R" ps = none) (hcreate : w.creatable (cstr f) = true)
    (hnew : w.fs.stat (cstr f) = none ∨ (w.fs.canRead (cstr f) = true ∧ w.fs.canWrite (cstr f) = true))
    (l : List (ImgTol × Str)) (hl : Reads rd.real rd.unsigned {} args l) (bs : List Meas) (hbs : Entries 0 (l.map (·.2)) bs) :
    let run := imageCompare env rd dataDir fuel (prog :: (flat ps ++ args)) w
    run.2 = .ok 0 ∧ run.1.world.openRead f = some (header w ++ bs.flatMap line ++ footer) ∧
      ∀ m, m ≠ cstr f → run.1.world.fs.stat m = w.fs.stat m ∧ run.1.world.fs.canRead m = w.fs.canRead m ∧ run.1.world.bytes m = w.bytes m := by
  have hnw : ¬ (isFile w.fs f = true ∧ isWritable w.fs f = false) := by
    rintro ⟨h1, h2⟩
    rcases hnew with h | ⟨_, h⟩
    · simp [isFile, h] at h1
    · simp [isWritable, isDirectory, h] at h2
      simp [isFile, h2.1] at h1
  have hp := C35_options_removed w.fs fuel { itkObject dataDir with unmatched := (itkObject dataDir).unmatched + 1 } prog ps args hopt href (reads_stop _ _ _ _ _ hl) hfuel
  obtain ⟨o, hoo⟩ : ∃ o, o = (parseArguments w.fs fuel { itkObject dataDir with unmatched := (itkObject dataDir).unmatched + 1 } (prog :: (flat ps ++ args))).1 := ⟨_, rfl⟩
  have hp1 : parseArguments w.fs fuel { itkObject dataDir with unmatched := (itkObject dataDir).unmatched + 1 } (prog :: (flat ps ++ args)) = (o, .ok (prog :: args)) := by rw [hoo, hp]
  rw [hp, hi, ho, hr] at hoo
  simp only at hoo
  rw [if_neg (by simpa using hnw)] at hoo
  clear hp
  have o1 : o.is = none ∧ o.inFileName = [] ∧ o.outFileName = f ∧ o.expected = 0 := by rw [hoo]; exact ⟨rfl, rfl, rfl, rfl⟩
  obtain ⟨o1, o2, o3, o4⟩ := o1
  clear hoo
  obtain ⟨w', hwr, hbegin, hb0⟩ := begin_record env ⟨o, w⟩ o1 o2 (by rw [o3]; exact hf) (by rw [o3]; exact hcreate)
  obtain ⟨s1', hbegin', hdoc, -⟩ := C41_recorded_document env (imageTest rd) fuel (prog :: (flat ps ++ args)) ⟨itkObject dataDir, w⟩ o _ hp1 o1 o2 (by rw [o3]; exact hf)
    (by rw [o3]; exact hcreate) ((loop_settled rd _ _ _ _ (Nat.le_refl _)).2 _)
  rw [hbegin'] at hbegin
  have hs1 : s1' = _ := congrArg Prod.fst hbegin
  simp only [World.openWrite, o3, if_pos hcreate, Option.some.injEq] at hwr
  have hobj : s1'.obj = { o with os := some f } := by
    rw [hs1, emit_obj]
    simp only [o3]
  have hfr := frame_emit ⟨{ o with os := some o.outFileName }, w'⟩ (header w)
  rw [show St.emit ⟨{ o with os := some o.outFileName }, w'⟩ (header w) = s1' from hs1.symm] at hfr
  obtain ⟨-, b, co, hw1, hb1⟩ := hfr
  obtain ⟨s2, hrun, hfs2, hby2⟩ := loop_record env rd {} args l hl 0 s1' (by rw [hobj]; exact o1) (by rw [hobj]; exact o2)
  have hrun' : runProg env (imageTest rd (prog :: args)) s1' = (s2, .ok 0) := hrun
  have hbytes := hdoc 0 (by rw [hrun'])
  have hobs := (C73_images_measured rd env prog args l hl s1' 0 (by rw [hrun'])).2
  have hset := runProg_settled env _ (loop_settled rd args.length {} 0 args (Nat.le_refl _)).1 s1'
  rw [hrun] at hset
  obtain ⟨t1, -, t2, t3⟩ := hset
  have hlines : (observed env (imageTest rd (prog :: args)) s1').flatMap (fun x => line (recordedMeas x.call)) = bs.flatMap line := by
    rw [entries_lines l 0 bs hbs]
    generalize observed env (imageTest rd (prog :: args)) s1' = obs at hobs
    have h := congrArg (List.map Prod.snd) hobs
    rw [List.map_map, List.map_map] at h
    have e : obs.flatMap (fun x => line (recordedMeas x.call)) = ((obs.map (Prod.snd ∘ fun o => (o.imageTol, o.call))).map recordedMeas).flatMap line := by
      clear * -
      induction obs with
      | nil => rfl
      | cons x xs ih => simp only [List.flatMap_cons, List.map_cons, ih]; rfl
    rw [e, h]
    rfl
  rw [hlines, o3] at hbytes
  refine ⟨?_, ?_⟩
  · have := C38_record_value env (imageTest rd) fuel (prog :: (flat ps ++ args)) ⟨itkObject dataDir, w⟩ o (prog :: args) s1' s2 0 hp1 hbegin' hrun' (by
      simp only at t2
      rw [t2, hobj]; exact o2)
    rw [imageCompare, this, if_pos]
    simp only at t1
    rw [t1, hobj]
    exact o4.symm
  have hlast := C41_record_lines env (imageTest rd (prog :: args)) s1' (by rw [hobj]; exact o1) (by rw [hobj]; exact o2) ((loop_settled rd _ _ _ _ (Nat.le_refl _)).2 _)
  rw [hrun'] at hlast
  obtain ⟨-, q1, q2, q3⟩ := hlast
  simp only at q1 q2 q3
  rw [hobj] at q1
  simp only at q1
  have hworld : (imageCompare env rd dataDir fuel (prog :: (flat ps ++ args)) w).1.world = (s2.emit footer).world := by
    simp only [imageCompare, main, tryBlock, hp1, hbegin', hrun', endMeasurement, Xml.recording s2 q2 q3, Bool.false_eq_true, if_false]
  rw [show (main env (imageTest rd) fuel (prog :: (flat ps ++ args)) ⟨itkObject dataDir, w⟩).1.world = (s2.emit footer).world from hworld] at hbytes
  rw [hworld]
  have hfs : (s2.emit footer).world.fs = w'.fs := by rw [emit_fs, hfs2, hw1]
  have hst : w'.fs.stat (cstr f) = some .regular ∧ w'.fs.canRead (cstr f) = true := by
    rw [← hwr]
    simp only [true_and, if_true]
    rcases hnew with h | h
    · simp [h]
    · simp [h.1]
  refine ⟨?_, fun m hm => ?_⟩
  · rw [World.openRead, hfs, if_pos hst, hbytes]
  · rw [hfs]
    refine ⟨?_, ?_, ?_⟩
    · rw [← hwr]; exact if_neg hm
    · rw [← hwr]; exact if_neg (fun h => hm h.1)
    · have e1 : (s2.emit footer).world.bytes m = s2.world.bytes m := by
        rw [St.emit, q1]
        exact if_neg hm
      rw [e1, hby2 m (by rw [hobj]; intro o' h; cases h; exact hm), hw1]
      simp only
      rw [hb1 m (by rw [o3]; intro o' h; cases h; exact hm), ← hwr]
      exact if_neg hm

theorem entries_at : ∀ (l : List (ImgTol × Str)) (i : Nat) (bs : List Meas), Entries i (l.map (·.2)) bs → ∀ (k : Nat) (b : Meas),
    bs[k]? = some b ↔ ∃ t orig, l[k]? = some (t, orig) ∧ b = .file { type := b!"image/itk", name := b!"ImageFile" ++ natText (i + k), fileName := baseName orig }
  | [], _, bs, h, k, b => by
    have : bs = [] := h
    subst this
    simp
  | (t, file) :: l, i, bs, h, k, b => by
    obtain ⟨last, rest, h1, rfl, h2⟩ := h
    have e := last_baseName _ _ h1
    subst e
    cases k with
    | zero =>
      simp only [List.getElem?_cons_zero, Option.some.injEq, Nat.add_zero]
      constructor
      · rintro rfl
        exact ⟨t, file, rfl, rfl⟩
      · rintro ⟨t', orig, e, rfl⟩
        cases e
        rfl
    | succ k =>
      simp only [List.getElem?_cons_succ]
      rw [entries_at l (i + 1) rest h2 k b, show i + 1 + k = i + (k + 1) by omega]

/-- **C110.** Recording and comparing with the program.  Recording returns 0.  If later the document is found under the name given by `-I`, comparing returns 0 exactly if there are not more images than
recorded ones and each one is like the image that is now found under the last component of the name recorded at its position, with the tolerances given for it in the comparing run.  The
tolerances of the recording run do not matter, nor do the images there were when it was made. -/
theorem C110_record_and_compare (I : Toolkit) (hI : Sound I) (dec : Str → Option Loaded) (hR : ReadsFiles I dec) (X : Expat) (hX : Conforms X) (env : Env)
    (henv : env.image = some I.imageEnv) (rd : Readers) (dataDir : Str) (fuel : Nat)
    (w : World) (hw : Comment (commentText w)) (prog : Str) (ps : List (Str × Str)) (args : List Str) (hopt : ∀ p ∈ ps, IsOption p.1)
    (href : ∀ p ∈ ps, ¬ Refused w.fs p) (hfuel : ps.length < fuel) (f : Str) (ho : lastValue b!"-O" ps = some f) (hf : f ≠ []) (hi : lastValue b!"-I" ps = none)
    (hr : lastValue b!"-R" ps = none) (hcreate : w.creatable (cstr f) = true)
    (hnew : w.fs.stat (cstr f) = none ∨ (w.fs.canRead (cstr f) = true ∧ w.fs.canWrite (cstr f) = true))
    (l : List (ImgTol × Str)) (hl : Reads rd.real rd.unsigned {} args l) (hclean : ∀ y ∈ l, (∀ c ∈ y.2, Printable c) ∧ ¬ LastComponent y.2 [])
    (w2 : World) (prog' : Str) (ps' : List (Str × Str)) (args' : List Str) (hopt' : ∀ p ∈ ps', IsOption p.1) (href' : ∀ p ∈ ps', ¬ Refused w2.fs p) (hfuel' : ps'.length < fuel)
    (name file : Str) (hi' : lastValue b!"-I" ps' = some name) (hn' : name ≠ []) (ho' : lastValue b!"-O" ps' = none) (hr' : lastValue b!"-R" ps' = none)
    (hfile : LookedUp w2.fs name ((values b!"-P" ps').reverse ++ [dataDir]) file)
    (hopen : w2.openRead file = (imageCompare (withXML X env) rd dataDir fuel (prog :: (flat ps ++ args)) w).1.world.openRead f)
    (l' : List (ImgTol × Str)) (hl' : Reads rd.real rd.unsigned {} args' l') :
    (imageCompare (withXML X env) rd dataDir fuel (prog :: (flat ps ++ args)) w).2 = .ok 0 ∧
    ((imageCompare (withXML X env) rd dataDir fuel (prog' :: (flat ps' ++ args')) w2).2 = .ok 0 ↔
      ∀ (k : Nat) (t : ImgTol) (test : Str), l'[k]? = some (t, test) → ∃ t0 orig last place v x, l[k]? = some (t0, orig) ∧ LastComponent orig last ∧
        LookedUp w2.fs last ((values b!"-P" ps').reverse ++ [dataDir]) place ∧ I.read w2 place = some v ∧ I.read w2 test = some x ∧ Alike I t v.image x.image) := by
  obtain ⟨bs, hbs⟩ := entries_exist (l.map (·.2)) 0
  obtain ⟨h1, h2, -⟩ := C110_record (withXML X env) rd dataDir fuel w prog ps args hopt href hfuel f ho hf hi hr hcreate hnew l hl bs hbs
  refine ⟨h1, ?_⟩
  rw [h2] at hopen
  have hat := entries_at l 0 bs hbs
  simp only [Nat.zero_add] at hat
  have hread : (withXML X env).readXML (header w ++ bs.flatMap line ++ footer) = .ok bs := by
    rw [show (withXML X env).readXML = readXML X from rfl]
    have e := entries_lines l 0 bs hbs
    have := read_recording X hX ((l.zipIdx 0).map fun ((_, f), j) => Call.fileITK f (b!"ImageFile" ++ natText j)) w hw (by
      intro c hc
      obtain ⟨⟨⟨t, g⟩, j⟩, hm, rfl⟩ := List.mem_map.mp hc
      have hg : (t, g) ∈ l := by
        have := List.mem_zipIdx hm
        rw [this.2.2]
        exact List.getElem_mem _
      refine ⟨?_, show ∀ c ∈ b!"image/itk", AttrChar c by decide, ?_, rfl⟩
      · intro c hc
        simp only [Call.meas, List.mem_append] at hc
        rcases hc with hc | hc
        · revert c; decide
        · obtain ⟨q1, q2⟩ := (natText_spec j).2.1 c hc
          have q1 := UInt8.le_iff_toNat_le.mp q1
          have q2 := UInt8.le_iff_toNat_le.mp q2
          have r : ∀ n < 256, 48 ≤ n → n ≤ 57 → AttrChar (UInt8.ofNat n) := by decide +kernel
          have := r c.toNat c.toNat_lt q1 q2
          rwa [UInt8.ofNat_toNat] at this
      · intro c hc
        exact (hclean _ hg).1 c (baseName_mem _ _ hc))
    rw [← e] at this
    rw [← this]
    congr 3
    conv_lhs => rw [e]
    rw [List.flatMap_def, List.map_map]
    rfl
  have hne : ∀ b ∈ bs, ∀ j g, NamesImage j b g → ¬ LastComponent g [] := by
    intro b hb j g hg hlast
    obtain ⟨k, hk⟩ := List.mem_iff_getElem?.mp hb
    obtain ⟨t, orig, e1, rfl⟩ := (hat k b).mp hk
    obtain ⟨f', e2, -, -, rfl⟩ := hg
    cases e2
    have e3 := last_baseName _ _ hlast
    simp only at e3
    rw [baseName_id _ (baseName_slashless orig)] at e3
    exact (hclean _ (List.mem_of_getElem? e1)).2 (e3 ▸ baseName_last orig)
  have henv' : (withXML X env).image = some I.imageEnv := henv
  rw [C110_passes I hI (withXML X env) dec hR henv' rd dataDir fuel w2 prog' ps' args' hopt' href' hfuel' name file _ bs hi' hn' ho' hr' hfile hopen hread hne l' hl', AllPass]
  refine forall_congr' fun k => forall_congr' fun t => forall_congr' fun test => forall_congr' fun _ => ?_
  constructor
  · rintro ⟨b, recorded, last, place, v, x, g1, g2, g3, g4⟩
    obtain ⟨t0, orig, e1, rfl⟩ := (hat k b).mp g1
    obtain ⟨f', e2, -, -, rfl⟩ := g2
    cases e2
    have e3 := last_baseName _ _ g3
    simp only at e3
    rw [baseName_id _ (baseName_slashless orig)] at e3
    subst e3
    exact ⟨t0, orig, _, place, v, x, e1, baseName_last orig, g4⟩
  · rintro ⟨t0, orig, last, place, v, x, g1, g3, g4⟩
    have e3 := last_baseName _ _ g3
    subst e3
    exact ⟨_, baseName orig, baseName orig, place, v, x, (hat k _).mpr ⟨t0, orig, g1, rfl⟩, ⟨_, rfl, rfl, rfl, rfl⟩, ⟨baseName_slashless orig, .inl rfl⟩, g4⟩

end Verif.Itk
