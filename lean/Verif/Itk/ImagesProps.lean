import Verif.Itk.ImagesFrame
import Verif.Regression.SettingsProps

/-!
# Property C103: images that are measured through files of their own
-/

namespace Verif.Itk
open Spec Verif.Path Verif.Measurement Verif.Measurement.Spec Verif.Regression Verif.Regression.Spec

/-! ## The hash -/

theorem hashStep_state (c : UInt8) (h h' : UInt16) (e : hashStep h c = hashStep h' c) : h = h' := by
  simp only [hashStep] at e
  have e := (UInt16.xor_left_inj _).mp e
  revert e
  rcases h with ⟨h⟩
  rcases h' with ⟨h'⟩
  intro e
  have e' := congrArg UInt16.toBitVec e
  simp only [UInt16.toBitVec_or, UInt16.toBitVec_shiftLeft, UInt16.toBitVec_shiftRight] at e'
  have key : ∀ x y : BitVec 16, (x <<< 7 ||| x >>> 9) = (y <<< 7 ||| y >>> 9) → x = y := by
    intro x y hxy
    ext i hi
    by_cases h7 : i < 9
    · have := congrArg (fun b : BitVec 16 => b.getLsbD (i + 7)) hxy
      simp [BitVec.getLsbD_or, BitVec.getLsbD_shiftLeft, BitVec.getLsbD_ushiftRight, show i + 7 < 16 by omega, BitVec.getLsbD_of_ge, show 16 ≤ 9 + (i + 7) by omega] at this
      simpa [BitVec.getLsbD_eq_getElem, hi] using this
    · have := congrArg (fun b : BitVec 16 => b.getLsbD (i - 9)) hxy
      simp [BitVec.getLsbD_or, BitVec.getLsbD_shiftLeft, BitVec.getLsbD_ushiftRight, show i - 9 < 7 by omega, show 9 + (i - 9) = i by omega] at this
      simpa [BitVec.getLsbD_eq_getElem, hi] using this
  exact congrArg UInt16.ofBitVec (key _ _ e')

theorem hashStep_char (h : UInt16) (a b : UInt8) (e : hashStep h a = hashStep h b) : a = b := by
  simp only [hashStep] at e
  have e := (UInt16.xor_right_inj _).mp e
  have key : ∀ a b : UInt8, a.toInt8.toInt16.toUInt16 = b.toInt8.toInt16.toUInt16 → a = b := by
    have inv : ∀ n : Fin 256, (UInt8.ofNat n.val).toInt8.toInt16.toUInt16.toUInt8 = UInt8.ofNat n.val := by decide +kernel
    intro a b h
    have ha := inv ⟨a.toNat, UInt8.toNat_lt a⟩
    have hb := inv ⟨b.toNat, UInt8.toNat_lt b⟩
    simp only [UInt8.ofNat_toNat] at ha hb
    rw [← ha, ← hb, h]
  exact key a b e

theorem hash_state (y : Str) : ∀ h h' : UInt16, y.foldl hashStep h = y.foldl hashStep h' → h = h' := by
  induction y with
  | nil => intro h h' e; exact e
  | cons c y ih => intro h h' e; exact hashStep_state c _ _ (ih _ _ e)

theorem flat_args (args : List Str) : args.foldl (· ++ ·) [] = args.flatten := by
  have : ∀ (l : List Str) (acc : Str), l.foldl (· ++ ·) acc = acc ++ l.flatten := by
    intro l
    induction l with
    | nil => simp
    | cons x l ih => intro acc; simp [ih]
  simpa using this args []

/-- Two argument lists that differ in one character have different hashes. -/
theorem hash_one_char (before after : List Str) (x y : Str) (c d : UInt8) (hne : c ≠ d) :
    hashArgs (before ++ (x ++ c :: y) :: after) ≠ hashArgs (before ++ (x ++ d :: y) :: after) := by
  intro e
  simp only [hashArgs, flat_args] at e
  simp only [List.flatten_append, List.flatten_cons, List.append_assoc, List.cons_append, List.foldl_append, List.foldl_cons] at e
  exact hne (hashStep_char _ _ _ (hash_state _ _ _ (hash_state _ _ _ e)))

/-! ## Files of a run -/

theorem run_image (env : Env) (enc : Image → Str) (a : Str) (args : List Str) (c : UInt32) (im : Image) (name : Str) (k : Names → Int → Prog) (s : St) :
    runProg env (insightImage enc ⟨a :: args, c⟩ im name k) s =
      if s.world.creatable (cstr (fileAt a args (c + 1))) = true then
        match runCall env { s with world := saveImage enc s.world (fileAt a args (c + 1)) im } (.fileITK (fileAt a args (c + 1)) name) with
        | (s, .error f) => (s, .error f)
        | (s, .ok r) => runProg env (k ⟨a :: args, c + 1⟩ r) s
      else (s, .error (.thrown "itk::ExceptionObject")) := by
  simp only [insightImage, generate_mha, runProg]
  split
  · simp only [runProg]; rfl
  · simp only [runProg]

/-- What a run has done to the world when it ends normally. -/
theorem run_images (env : Env) (enc : Image → Str) (a : Str) (args : List Str) (h0 : 0 ∉ a) : ∀ (ims : List (Str × Image)) (c : UInt32)
    (files : List Str) (s s' : St) (r : Int), ims.length ≤ 4294967296 → FilesOf ⟨a :: args, c⟩ ims.length files →
    runProg env (imagesTest enc ⟨a :: args, c⟩ ims) s = (s', .ok r) →
    r = 0 ∧ (∃ u i, s'.obj = { s.obj with unmatched := u, input := i }) ∧
    (∀ m, m ∉ files → s'.world.fs.stat m = s.world.fs.stat m ∧ s'.world.fs.canRead m = s.world.fs.canRead m ∧
      ((∀ o, s.obj.os = some o → m ≠ cstr o) → s'.world.bytes m = s.world.bytes m)) ∧
    ((∀ o, s.obj.os = some o → cstr o ∉ files) → ∀ (i : Nat) (p : Str × Image) (f : Str), ims[i]? = some p → files[i]? = some f →
      s'.world.bytes f = enc p.2 ∧ s'.world.fs.stat f = some .regular ∧
      (s.world.fs.stat f = none ∨ s.world.fs.canRead f = true → s'.world.fs.canRead f = true)) := by
  intro ims
  induction ims with
  | nil =>
    intro c files s s' r _ hf hr
    simp only [imagesTest, runProg, Prod.mk.injEq, Except.ok.injEq] at hr
    obtain ⟨rfl, rfl⟩ := hr
    exact ⟨rfl, ⟨_, _, rfl⟩, fun m _ => ⟨rfl, rfl, fun _ => rfl⟩, fun _ i p f h => by simp at h⟩
  | cons q ims ih =>
    obtain ⟨name, im⟩ := q
    intro c files s s' r hn hf hr
    have hfc := files_cons a args ims.length c files hf
    obtain ⟨rest, rfl, hrest⟩ := hfc
    rw [imagesTest, run_image] at hr
    have hnul := fileAt_nul a args (c + 1) h0
    generalize hfile : fileAt a args (c + 1) = file at *
    rw [hnul] at hr
    by_cases hcr : s.world.creatable file = true
    swap
    · rw [if_neg hcr] at hr; cases hr
    rw [if_pos hcr] at hr
    obtain ⟨cr, hsave, hcan⟩ := save_eq enc s.world file im (by rw [hnul]; exact hcr)
    rw [hnul] at hsave hcan
    have hfr := frame_call env { s with world := saveImage enc s.world file im } (.fileITK file name)
    rcases hc : runCall env { s with world := saveImage enc s.world file im } (.fileITK file name) with ⟨s1, f | v⟩
    · rw [hc] at hr; cases hr
    rw [hc] at hr hfr
    simp only at hr hfr
    obtain ⟨⟨u, i, ho⟩, ⟨b, co, hw, hb⟩⟩ := hfr
    simp only at ho hw hb
    simp only [List.length_cons] at hn
    obtain ⟨g1, ⟨u', i', g2⟩, g3, g4⟩ := ih (c + 1) rest s1 s' r (by omega) hrest hr
    rw [hsave] at hw hb
    have hos : s1.obj.os = s.obj.os := by rw [ho]
    refine ⟨g1, ⟨u', i', by rw [g2, ho]⟩, ?_, ?_⟩
    · intro m hm
      simp only [List.mem_cons, not_or] at hm
      obtain ⟨e1, e2, e3⟩ := g3 m hm.2
      refine ⟨?_, ?_, ?_⟩
      · rw [e1, hw]; simp only; rw [if_neg hm.1]
      · rw [e2, hw]; simp only
        have := hcan m
        simp only [hm.1, false_and, false_or] at this
        exact Bool.eq_iff_iff.mpr this
      · intro h
        rw [e3 (by rw [hos]; exact h), hw]
        simp only
        rw [hb m h]; exact if_neg hm.1
    · intro h i p f hi hfi
      have hnot : file ∉ rest := by
        intro hmem
        obtain ⟨j, hj, hje⟩ := List.mem_iff_getElem.mp hmem
        have hlen := (files_eq a args _ _ _ hrest).1
        have := files_distinct a args (ims.length + 1) hn c (file :: rest) hf 0 (j + 1) (by omega) (by omega) file file (by simp) (by simp [hj, hje]) rfl
        omega
      cases i with
      | zero =>
        simp only [List.getElem?_cons_zero, Option.some.injEq] at hi hfi
        subst hi hfi
        obtain ⟨e1, e2, e3⟩ := g3 file hnot
        have hfo : ∀ o, s.obj.os = some o → file ≠ cstr o := fun o hoo he => h o hoo (by simp [he])
        refine ⟨?_, ?_, ?_⟩
        · rw [e3 (by rw [hos]; exact hfo), hw]
          simp only
          rw [hb file hfo]; exact if_pos rfl
        · rw [e1, hw]; simp
        · intro hcase
          rw [e2, hw]
          simp only
          rw [hcan]
          rcases hcase with h | h
          · exact .inl ⟨rfl, h⟩
          · exact .inr h
      | succ i =>
        simp only [List.getElem?_cons_succ] at hi hfi
        obtain ⟨e1, e2, e3⟩ := g4 (by rw [hos]; exact fun o hoo hm => h o hoo (by simp [hm])) i p f hi hfi
        refine ⟨e1, e2, fun hcase => e3 ?_⟩
        have hne : f ≠ file := fun he => hnot (he ▸ List.mem_of_getElem? hfi)
        rw [hw]
        simp only
        rw [if_neg hne, hcan]
        rcases hcase with h | h
        · exact .inl h
        · exact .inr (.inr h)

/-! ## Comparing -/

theorem difference_silent (I : Toolkit) (hI : Sound I) (w : World) (t : ImgTol) (g f : FileM) (lt lb : Loaded)
    (ht : I.read w g.fileName = some lt) (hb : I.read w f.fileName = some lb) : (I.differenceText w t g f).2 = none := by
  simp only [Toolkit.differenceText, ht, hb]
  by_cases hs : lb.image.region.size = lt.image.region.size
  · have hr : lb.image.region = lt.image.region := region_of_size _ _ (hI.1 _ _ _ hb) (hI.1 _ _ _ ht) hs
    have hc := C47_count I.arith t.intensity t.radius (I.threads lb.image.region) lb.image lt.image (hI.2 _)
      (by rw [hr]; exact contains_refl _)
    rw [if_neg (by simpa using hs)]
    simp only [errorText, hc, statusText_eq, statusPair_eq, pngText, tail_baseName, imageThing_eq]
    rw [← List.map_append, ← List.map_append, ← List.map_append, ← List.map_append, ← List.map_append, ← List.map_append, ← List.map_append, ← List.map_append,
      writeAll_oks]
    simp [writeAll]
  · rw [if_pos hs]
    simp [statusPair, statusText_eq, writeAll]

theorem openRead_cstr (w : World) (n : Str) : w.openRead (cstr n) = w.openRead n := Regression.openRead_cstr w n

open Classical in
/-- One image compared with the image of a baseline file, both readable. -/
theorem image_call (I : Toolkit) (hI : Sound I) (dec : Str → Option Loaded) (hR : ReadsFiles I dec) (env : Env) (henv : env.image = some I.imageEnv) (s : St)
    (bytes : Str) (his : s.obj.is = some bytes) (file name : Str) (f : FileM) (rest : List Meas) (hinput : s.obj.input = .file f :: rest)
    (htype : f.type = b!"image/itk") (lt lb : Loaded) (ht : (s.world.openRead file).bind dec = some lt)
    (hb : (s.world.openRead (located s.world s.obj.searchPath f.fileName)).bind dec = some lb) :
    ∃ s' r, runCall env s (.fileITK file name) = (s', .ok r) ∧ s'.obj.input = rest ∧
      s'.obj.unmatched = s.obj.unmatched + (if f.name = name ∧ Alike I s.obj.imageTol lb.image lt.image then 0 else 1) := by
  rw [runCall, compareMode_is his, if_pos rfl, compareMeasurement]
  simp only [hinput]
  by_cases hname : f.name = name
  swap
  · rw [if_neg (by simp [Meas.name, Call.meas, hname]), if_neg (fun h => hname h.1)]
    obtain ⟨t, ht, hl⟩ := renamed_print (.fileITK file name) (b!"Unmatched " ++ (Call.fileITK file name).meas.name)
    simp only [unmatchedMeasurement, ht, Res.andThen]
    refine ⟨_, _, rfl, ?_, ?_⟩ <;> simp [emit_obj]
  subst hname
  rw [if_pos ⟨rfl, by simp [Meas.type, htype, Call.meas]⟩]
  obtain ⟨b', hl, h1, h2, _, hb'⟩ := locate_eq { s with obj := { s.obj with input := rest } } (.file f) (Call.fileITK file f.name).meas
  simp only [Call.meas] at hb'
  subst hb'
  rw [hl]
  simp only [compareVisit, imagePair, henv, Call.meas, if_true, Toolkit.imageEnv]
  have hread : ∀ (c n : Str), I.read { s.world with cout := c } n = (s.world.openRead n).bind dec := fun c n => hR _ n
  have hag := C50_run_passes_iff I hI env henv s.obj.searchPath (.file f) file f.name s.obj.tolerance s.obj.imageTol s.world
  have hcmp : Toolkit.compare I s.world s.obj.imageTol (cstr file) (cstr (located s.world s.obj.searchPath f.fileName)) = true ↔
      Alike I s.obj.imageTol lb.image lt.image := by
    have e1 : Agree env (.file f) ⟨.fileITK file f.name, s.obj.tolerance, s.obj.imageTol, s.obj.searchPath, s.world⟩ ↔
        Toolkit.compare I s.world s.obj.imageTol (cstr file) (cstr (located s.world s.obj.searchPath f.fileName)) = true := by
      simp [Agree, Call.meas, Meas.name, Meas.type, SameValue, henv, htype, Toolkit.imageEnv]
    rw [← e1, hag]
    constructor
    · rintro ⟨f', v, t, h0, -, -, h3, h4, h5⟩
      cases h0
      rw [hR, openRead_cstr, hb] at h3
      rw [hR, openRead_cstr, ht] at h4
      cases h3
      cases h4
      exact h5
    · intro h
      exact ⟨f, lb, lt, rfl, rfl, htype, by rw [hR, openRead_cstr, hb], by rw [hR, openRead_cstr, ht], h⟩
  by_cases hal : Alike I s.obj.imageTol lb.image lt.image
  · rw [if_pos (hcmp.mpr hal)]
    refine ⟨_, _, rfl, rfl, ?_⟩
    simp [St.toCout, hal]
  · rw [if_neg (fun h => hal (hcmp.mp h))]
    have hd := fun c => difference_silent I hI { s.world with cout := c } s.obj.imageTol ⟨b!"image/itk", f.name, file, true⟩
      { f with fileName := located s.world s.obj.searchPath f.fileName } lt lb (by rw [hread]; exact ht) (by rw [hread]; exact hb)
    simp only [differenceMeasurement, imagePair, henv, if_true, St.toCout]
    generalize hdt : I.imageEnv.diff _ _ _ _ = r
    have hr : r.2 = none := by rw [← hdt]; exact hd _
    rcases r with ⟨t, e⟩
    simp only at hr
    subst hr
    refine ⟨_, _, rfl, rfl, ?_⟩
    simp [hal]

/-- A file is the same in both. -/
def SameFile (w w' : World) (m : Str) : Prop := w'.fs.stat m = w.fs.stat m ∧ w'.fs.canRead m = w.fs.canRead m ∧ w'.bytes m = w.bytes m

/-- Where a baseline file may be looked for. -/
def Candidate (path : List Str) (n m : Str) : Prop := ((path = [] ∨ baseName n = []) ∧ m = n) ∨ ∃ p ∈ path, m = append p (baseName n)

theorem baseName_slashless (p : Str) : 47 ∉ baseName p := by
  rw [baseName, List.mem_reverse]
  have : ∀ l : Str, (47 : UInt8) ∉ l.takeWhile (· ≠ 47) := by
    intro l
    induction l with
    | nil => simp
    | cons x xs ih =>
      rw [List.takeWhile_cons]
      split
      · next hx =>
        simp only [List.mem_cons, not_or]
        exact ⟨fun h => by subst h; simp at hx, ih⟩
      · simp
  exact this _

theorem baseName_id (t : Str) (h : 47 ∉ t) : baseName t = t := by
  have := baseName_append [] t h
  simpa [baseName] using this

theorem baseName_mem (p : Str) (c : UInt8) (h : c ∈ baseName p) : c ∈ p := by
  rw [baseName, List.mem_reverse] at h
  have := (List.takeWhile_sublist _).subset h
  simpa using this

theorem append_tail (p t : Str) (ht : 47 ∉ t) (h0 : 0 ∉ p) (h0' : 0 ∉ t) : baseName (append p t) = t ∧ 0 ∉ append p t := by
  by_cases hp : p = []
  · subst hp
    rw [show append [] t = t by simp [Path.append]]
    exact ⟨baseName_id t ht, h0'⟩
  · have hna : ¬ Path.Spec.Absolute t := by
      rintro ⟨r, rfl⟩
      exact ht (by simp)
    obtain ⟨q, ⟨n, hn, -, -⟩, e⟩ := append_rel (p := p) hp hna
    rw [e]
    constructor
    · rw [show q ++ 47 :: t = (q ++ [47]) ++ t by simp, baseName_append _ _ ht]
      simp [baseName]
    · simp only [List.mem_append, List.mem_cons, not_or]
      refine ⟨fun h => h0 (by rw [hn]; simp [h]), by decide, h0'⟩

theorem search_same (w w' : World) (t : Str) : ∀ (path : List Str) (acc : Str), (∀ p ∈ path, SameFile w w' (cstr (append p t))) →
    Path.searchLoop w'.fs t path acc = Path.searchLoop w.fs t path acc
  | [], _, _ => rfl
  | p :: ps, acc, hp => by
    have hf : isFile w'.fs (append p t) = isFile w.fs (append p t) := by
      simp only [isFile]
      rw [(hp p (by simp)).1]
    simp only [Path.searchLoop, hf]
    rw [search_same w w' t ps _ (fun q hq => hp q (by simp [hq]))]

theorem search_mem (fs : FileSys) (t : Str) : ∀ (path : List Str) (acc : Str),
    (path = [] ∧ Path.searchLoop fs t path acc = acc) ∨ ∃ p ∈ path, Path.searchLoop fs t path acc = append p t
  | [], _ => .inl ⟨rfl, rfl⟩
  | p :: ps, acc => by
    refine .inr ?_
    simp only [Path.searchLoop]
    split
    · exact ⟨p, by simp, rfl⟩
    · rcases search_mem fs t ps (append p t) with ⟨rfl, h⟩ | ⟨q, hq, h⟩
      · exact ⟨p, by simp, h⟩
      · exact ⟨q, by simp [hq], h⟩

theorem append_empty (p t : Str) (h : append p t = []) : t = [] := by
  simp only [Path.append] at h
  split at h
  · exact h
  · simp at h

theorem located_candidate (w : World) (path : List Str) (n : Str) : Candidate path n (located w path n) := by
  simp only [located]
  rcases search_mem w.fs (baseName n) path [] with ⟨rfl, h⟩ | ⟨p, hp, h⟩
  · rw [if_pos (show searchPathList w.fs (baseName n) [] = [] from h)]; exact .inl ⟨.inl rfl, rfl⟩
  · by_cases hz : searchPathList w.fs (baseName n) path = []
    · rw [if_pos hz]
      refine .inl ⟨.inr (append_empty p _ ?_), rfl⟩
      rw [← h]; exact hz
    · rw [if_neg hz]; exact .inr ⟨p, hp, h⟩

/-- A file is found at the same place, with the same content, if nothing has happened where it is looked for. -/
theorem located_same (w w' : World) (path : List Str) (n : Str) (h : ∀ m, Candidate path n m → SameFile w w' (cstr m)) :
    located w' path n = located w path n ∧ w'.openRead (located w path n) = w.openRead (located w path n) := by
  have e : searchPathList w'.fs (baseName n) path = searchPathList w.fs (baseName n) path :=
    search_same w w' _ path [] (fun p hp => h _ (.inr ⟨p, hp, rfl⟩))
  refine ⟨by simp only [located, e], ?_⟩
  obtain ⟨e1, e2, e3⟩ := h _ (located_candidate w path n)
  simp only [World.openRead, e1, e2, e3]

theorem same_save (enc : Image → Str) (w : World) (file : Str) (im : Image) (h0 : 0 ∉ file) (hc : w.creatable file = true) (m : Str) (hne : m ≠ file) :
    SameFile w (saveImage enc w file im) m := by
  obtain ⟨cr, hsave, hcan⟩ := save_eq enc w file im (by rw [cstr_id _ h0]; exact hc)
  rw [cstr_id _ h0] at hsave hcan
  rw [hsave]
  refine ⟨if_neg hne, ?_, if_neg hne⟩
  have := hcan m
  simp only [hne, false_and, false_or] at this
  exact Bool.eq_iff_iff.mpr this

/-- The candidates for a file have its last component. -/
theorem candidate_tail (path : List Str) (hp : ∀ p ∈ path, 0 ∉ p) (n m : Str) (h0 : 0 ∉ n) (h : Candidate path n m) : baseName (cstr m) = baseName n := by
  rcases h with ⟨-, rfl⟩ | ⟨p, hm, rfl⟩
  · rw [cstr_id _ h0]
  · obtain ⟨h1, h2⟩ := append_tail p (baseName n) (baseName_slashless n) (hp p hm) (fun hc => h0 (baseName_mem n 0 hc))
    rw [cstr_id _ h2, h1]

/-- The baseline measurement of a recorded image, whose file can be found and is not one of the files of this run. -/
def Kept (enc : Image → Str) (w : World) (path files : List Str) (x : Str × Image) (b : Meas) : Prop :=
  ∃ f : FileM, b = .file f ∧ f.name = x.1 ∧ f.type = b!"image/itk" ∧ (∀ m, Candidate path f.fileName m → cstr m ∉ files) ∧
    w.openRead (located w path f.fileName) = some (enc x.2)

/-- Images compared with images recorded in other files. -/
theorem compare_images (I : Toolkit) (hI : Sound I) (enc : Image → Str) (dec : Str → Option Loaded) (hR : ReadsFiles I dec) (env : Env) (henv : env.image = some I.imageEnv)
    (a : Str) (args : List Str) (h0 : 0 ∉ a) : ∀ (ys xs : List (Str × Image)) (c : UInt32) (files : List Str) (s : St) (bytes : Str),
    ys.length ≤ 4294967296 → FilesOf ⟨a :: args, c⟩ ys.length files → s.obj.is = some bytes → s.obj.os = none →
    List.Forall₂ (Kept enc s.world s.obj.searchPath files) xs s.obj.input →
    (∀ g ∈ files, s.world.creatable g = true ∧ (s.world.fs.stat g = none ∨ s.world.fs.canRead g = true)) →
    (∀ x ∈ xs, Survives enc dec x.2) → (∀ y ∈ ys, Survives enc dec y.2) →
    ∃ s', runProg env (imagesTest enc ⟨a :: args, c⟩ ys) s = (s', .ok 0) ∧ s'.obj.unmatched = s.obj.unmatched + unlikeImages I s.obj.imageTol xs ys := by
  intro ys
  induction ys with
  | nil =>
    intro xs c files s bytes _ _ _ _ _ _ _ _
    exact ⟨s, rfl, by cases xs <;> simp [unlikeImages]⟩
  | cons y ys ih =>
    obtain ⟨name, im⟩ := y
    intro xs c files s bytes hn hf his hos hkept hcr hxs hys
    obtain ⟨rest, rfl, hrest⟩ := files_cons a args ys.length c files hf
    rw [imagesTest, run_image]
    have hnul := fileAt_nul a args (c + 1) h0
    have hfile0 : 0 ∉ fileAt a args (c + 1) := by
      rw [← hnul]; simp only [cstr]
      intro h
      have := List.all_takeWhile (p := fun x : UInt8 => decide (x ≠ 0)) (l := fileAt a args (c + 1))
      rw [List.all_eq_true] at this
      simpa using this 0 h
    have hbase : ∀ g ∈ rest, baseName (fileAt a args (c + 1)) ≠ baseName g := by
      intro g hg he
      obtain ⟨j, hj, rfl⟩ := List.mem_iff_getElem.mp hg
      have hlen := (files_eq a args _ _ _ hrest).1
      have := files_distinct a args (ys.length + 1) (by simpa using hn) c _ hf 0 (j + 1) (by omega) (by omega) _ _ (by simp) (by simp [hj]) he
      omega
    generalize hfile : fileAt a args (c + 1) = file at *
    obtain ⟨hc1, hc2⟩ := hcr file (by simp)
    rw [hnul, if_pos hc1]
    obtain ⟨cr, hsave, hcan⟩ := save_eq enc s.world file im (by rw [hnul]; exact hc1)
    rw [hnul] at hsave hcan
    obtain ⟨s1, hs1⟩ : ∃ s1 : St, s1 = { s with world := saveImage enc s.world file im } := ⟨_, rfl⟩
    rw [← hs1]
    have hw1 : s1.world = saveImage enc s.world file im := by rw [hs1]
    have ho1 : s1.obj = s.obj := by rw [hs1]
    have hmine : s1.world.openRead file = some (enc im) := by
      rw [World.openRead, hnul, if_pos, hw1, hsave]
      · simp
      · rw [hw1, hsave]
        refine ⟨by simp, ?_⟩
        simp only
        rw [hcan]
        rcases hc2 with h | h
        · exact .inl ⟨rfl, h⟩
        · exact .inr h
    -- the call
    have hstep : ∃ s2 r, runCall env s1 (.fileITK file name) = (s2, .ok r) ∧ s2.obj.input = s.obj.input.drop 1 ∧
        s2.obj.unmatched + unlikeImages I s.obj.imageTol (xs.drop 1) ys = s.obj.unmatched + unlikeImages I s.obj.imageTol xs ((name, im) :: ys) := by
      generalize hin : s.obj.input = input at hkept ⊢
      cases hkept with
      | nil =>
        have := runCall_named env s1 (.fileITK file name) (compareMode_is (by rw [ho1]; exact his)) (by rw [ho1]; exact hin)
        refine ⟨_, _, this, ?_, ?_⟩
        · rw [emit_obj, ho1]; exact hin
        · rw [emit_obj, ho1]
          simp only [List.drop_nil, unlikeImages]
          push_cast
          omega
      | cons hk hks =>
        rename_i x b xs' bs
        obtain ⟨f, rfl, k2, k3, k5, k6⟩ := hk
        obtain ⟨lb, l1, l2⟩ := hxs x (by simp)
        obtain ⟨lt, t1, t2⟩ := hys (name, im) (by simp)
        have hs := located_same s.world s1.world s.obj.searchPath f.fileName (fun m hm => by
          rw [hw1]; exact same_save enc s.world file im hfile0 hc1 _ (fun he => k5 m hm (by simp [he])))
        obtain ⟨s2, r, c1, c2, c3⟩ := image_call I hI dec hR env henv s1 bytes (by rw [ho1]; exact his) file name f bs (by rw [ho1]; exact hin) k3 lt lb
          (by rw [hmine]; exact t1) (by rw [ho1, hs.1, hs.2, k6]; exact l1)
        refine ⟨s2, r, c1, by rw [c2]; rfl, ?_⟩
        rw [c3, ho1, k2, l2, t2]
        simp only [List.drop_succ_cons, List.drop_zero, unlikeImages]
        split <;> push_cast <;> omega
    obtain ⟨s2, r, hr, hin2, hun⟩ := hstep
    have hfr := frame_call env s1 (.fileITK file name)
    rw [hr] at hfr ⊢
    simp only
    obtain ⟨⟨u, i, ho⟩, ⟨b, co, hw, hb⟩⟩ := hfr
    simp only at ho hw hb
    have hb' : b = s1.world.bytes := by
      funext m
      exact hb m (by rw [ho1, hos]; simp)
    subst hb'
    have hsame : ∀ m, m ≠ file → SameFile s.world s2.world m := by
      intro m hm
      have := same_save enc s.world file im hfile0 hc1 m hm
      rw [← hw1] at this
      obtain ⟨e1, e2, e3⟩ := this
      rw [hw]
      exact ⟨e1, e2, e3⟩
    have hobj : s2.obj.is = s.obj.is ∧ s2.obj.os = s.obj.os ∧ s2.obj.searchPath = s.obj.searchPath ∧ s2.obj.imageTol = s.obj.imageTol := by
      rw [ho, ho1]; exact ⟨rfl, rfl, rfl, rfl⟩
    obtain ⟨q1, q2, q3, q4⟩ := hobj
    obtain ⟨s', h1, h2⟩ := ih (xs.drop 1) (c + 1) rest s2 bytes (by simp at hn; omega) hrest (by rw [q1]; exact his) (by rw [q2]; exact hos)
      (by
        rw [hin2, q3]
        refine List.Forall₂.imp ?_ (List.forall₂_drop 1 hkept)
        rintro x b ⟨f, k1, k2, k3, k5, k6⟩
        have hs := located_same s.world s2.world s.obj.searchPath f.fileName (fun m hm => hsame _ (fun he => k5 m hm (by simp [he])))
        exact ⟨f, k1, k2, k3, fun m hm hg => k5 m hm (by simp [hg]), by rw [hs.1, hs.2]; exact k6⟩)
      (by
        intro g hg
        obtain ⟨d1, d2⟩ := hcr g (by simp [hg])
        obtain ⟨e1, e2, -⟩ := hsame g (fun he => hbase g hg (by rw [he]))
        rw [e1, e2]
        refine ⟨?_, d2⟩
        rw [hw, hw1, hsave]; exact d1)
      (fun x hx => hxs x (List.mem_of_mem_drop hx)) (fun y hy => hys y (by simp [hy]))
    refine ⟨s', h1, ?_⟩
    rw [h2, q4]
    exact hun

/-! ## C103 -/

/-- **C103.** Images measured in a row (up to 2^32) go to files of their own: when the test ends normally, each image is in the file with the name
generated for it, whatever was measured later, and every other file - but the output - is as it was.  This holds when recording and when comparing. -/
theorem C103_own_files (env : Env) (enc : Image → Str) (argv : List Str) (h0 : ∀ a ∈ argv.head?, 0 ∉ a) (c : UInt32) (ims : List (Str × Image)) (hn : ims.length ≤ 4294967296)
    (files : List Str) (hf : FilesOf ⟨argv, c⟩ ims.length files) (s s' : St) (r : Int)
    (hrun : runProg env (imagesTest enc ⟨argv, c⟩ ims) s = (s', .ok r)) (hos : ∀ o, s.obj.os = some o → cstr o ∉ files) :
    (∀ (i : Nat) (p : Str × Image) (f : Str), ims[i]? = some p → files[i]? = some f →
      s'.world.bytes f = enc p.2 ∧ s'.world.fs.stat f = some .regular ∧
      (s.world.fs.stat f = none ∨ s.world.fs.canRead f = true → s'.world.openRead f = some (enc p.2))) ∧
    (∀ m, m ∉ files → s'.world.fs.stat m = s.world.fs.stat m ∧ s'.world.fs.canRead m = s.world.fs.canRead m ∧
      ((∀ o, s.obj.os = some o → m ≠ cstr o) → s'.world.bytes m = s.world.bytes m)) := by
  cases argv with
  | nil =>
    cases ims with
    | nil =>
      simp only [imagesTest, runProg, Prod.mk.injEq, Except.ok.injEq] at hrun
      obtain ⟨rfl, rfl⟩ := hrun
      exact ⟨fun i p f h => by simp at h, fun m _ => ⟨rfl, rfl, fun _ => rfl⟩⟩
    | cons q ims => simp [imagesTest, insightImage, Names.generate, runProg] at hrun
  | cons a args =>
    have h0 : 0 ∉ a := h0 a (by simp)
    obtain ⟨-, -, g3, g4⟩ := run_images env enc a args h0 ims c files s s' r hn hf hrun
    refine ⟨fun i p f h1 h2 => ?_, g3⟩
    obtain ⟨e1, e2, e3⟩ := g4 hos i p f h1 h2
    refine ⟨e1, e2, fun h => ?_⟩
    obtain ⟨l1, l2⟩ := files_eq a args _ _ _ hf
    have hi : i < ims.length := (List.getElem?_eq_some_iff.mp h1).1
    have hc : cstr f = f := by
      rw [l2 i hi] at h2
      cases h2
      exact fileAt_nul a args _ h0
    rw [World.openRead, hc, if_pos ⟨e2, e3 h⟩, e1]

/-- **C103.** A test run with two argument lists that differ in one character, anywhere, writes its images to different files: no file of the one run
has the name of a file of the other, even in another directory, and however many images were written before. -/
theorem C103_one_character (before after : List Str) (x y : Str) (c d : UInt8) (hne : c ≠ d) (m n : Nat) (k l : UInt32) (files files' : List Str)
    (h : FilesOf ⟨before ++ (x ++ c :: y) :: after, k⟩ m files) (h' : FilesOf ⟨before ++ (x ++ d :: y) :: after, l⟩ n files') :
    ∀ f ∈ files, ∀ g ∈ files', baseName f ≠ baseName g := by
  have hh := hash_one_char before after x y c d hne
  obtain ⟨a, args, e1⟩ : ∃ a args, before ++ (x ++ c :: y) :: after = a :: args := by cases before <;> exact ⟨_, _, rfl⟩
  obtain ⟨a', args', e2⟩ : ∃ a args, before ++ (x ++ d :: y) :: after = a :: args := by cases before <;> exact ⟨_, _, rfl⟩
  rw [e1] at h hh
  rw [e2] at h' hh
  obtain ⟨l1, l2⟩ := files_eq a args m k files h
  obtain ⟨l1', l2'⟩ := files_eq a' args' n l files' h'
  intro f hf g hg he
  obtain ⟨i, hi, rfl⟩ := List.mem_iff_getElem.mp hf
  obtain ⟨j, hj, rfl⟩ := List.mem_iff_getElem.mp hg
  have e3 := l2 i (by omega)
  have e4 := l2' j (by omega)
  rw [List.getElem?_eq_getElem hi, Option.some.injEq] at e3
  rw [List.getElem?_eq_getElem hj, Option.some.injEq] at e4
  rw [e3, e4] at he
  exact hh (base_inj _ _ _ _ _ _ he).1

/-- In particular for a test that is recorded with `-O` and compared with `-I`, the arguments being the same otherwise. -/
theorem C103_record_and_compare_files (before after : List Str) (m n : Nat) (k l : UInt32) (files files' : List Str)
    (h : FilesOf ⟨before ++ b!"-O" :: after, k⟩ m files) (h' : FilesOf ⟨before ++ b!"-I" :: after, l⟩ n files') :
    ∀ f ∈ files, ∀ g ∈ files', baseName f ≠ baseName g :=
  C103_one_character before after b!"-" [] 79 73 (by decide) m n k l files files' h h'

/-- Recording images: the calls succeed. -/
theorem record_images (env : Env) (enc : Image → Str) (a : Str) (args : List Str) (h0 : 0 ∉ a) : ∀ (xs : List (Str × Image)) (c : UInt32) (files : List Str) (s : St),
    FilesOf ⟨a :: args, c⟩ xs.length files → s.obj.is = none → s.obj.inFileName = [] → (∀ g ∈ files, s.world.creatable g = true) →
    ∃ s', runProg env (imagesTest enc ⟨a :: args, c⟩ xs) s = (s', .ok 0) ∧ s'.obj = s.obj ∧
      (observed env (imagesTest enc ⟨a :: args, c⟩ xs) s).map (·.call) = List.zipWith (fun x g => Call.fileITK g x.1) xs files
  | [], c, files, s, _, _, _, _ => ⟨s, rfl, rfl, by simp [imagesTest, observed]⟩
  | (name, im) :: xs, c, files, s, hf, h1, h2, hcr => by
    obtain ⟨rest, rfl, hrest⟩ := files_cons a args xs.length c files hf
    have hnul := fileAt_nul a args (c + 1) h0
    have hc := hcr (fileAt a args (c + 1)) (by simp)
    obtain ⟨cr, hsave, -⟩ := save_eq enc s.world (fileAt a args (c + 1)) im (by rw [hnul]; exact hc)
    have hcall := Xml.runCall_record env { s with world := saveImage enc s.world (fileAt a args (c + 1)) im } (.fileITK (fileAt a args (c + 1)) name) h1 h2
    have hfr := frame_emit { s with world := saveImage enc s.world (fileAt a args (c + 1)) im } (line (recordedMeas (.fileITK (fileAt a args (c + 1)) name)))
    generalize hs2 : St.emit { s with world := saveImage enc s.world (fileAt a args (c + 1)) im } (line (recordedMeas (.fileITK (fileAt a args (c + 1)) name))) = s2 at hcall hfr
    have ho2 : s2.obj = s.obj := by rw [← hs2, emit_obj]
    have hc2 : s2.world.creatable = s.world.creatable := by
      obtain ⟨-, ⟨b, co, hw, -⟩⟩ := hfr
      rw [hw]; simp only; rw [hsave]
    obtain ⟨s', e1, e2, e3⟩ := record_images env enc a args h0 xs (c + 1) rest s2 hrest (by rw [ho2]; exact h1) (by rw [ho2]; exact h2)
      (fun g hg => by rw [hc2]; exact hcr g (by simp [hg]))
    refine ⟨s', ?_, by rw [e2, ho2], ?_⟩
    · rw [imagesTest, run_image, hnul, if_pos hc, hcall]
      exact e1
    · rw [imagesTest, insightImage, generate_mha]
      simp only [observed, hnul, hc, if_true, List.zipWith_cons_cons]
      rw [List.map_cons, hcall]
      simp only [e3]

theorem keeps_images (enc : Image → Str) (o a : Str) (args : List Str) (h0 : 0 ∉ a) : ∀ (xs : List (Str × Image)) (c : UInt32) (files : List Str),
    FilesOf ⟨a :: args, c⟩ xs.length files → cstr o ∉ files → Keeps (some o) (imagesTest enc ⟨a :: args, c⟩ xs)
  | [], _, _, _, _ => trivial
  | (name, im) :: xs, c, files, hf, ho => by
    obtain ⟨rest, rfl, hrest⟩ := files_cons a args xs.length c files hf
    have hnul := fileAt_nul a args (c + 1) h0
    simp only [List.mem_cons, not_or] at ho
    rw [imagesTest, insightImage, generate_mha]
    intro w
    simp only
    split
    · refine ⟨fun w => ?_, fun r => keeps_images enc o a args h0 xs (c + 1) rest hrest ho.2⟩
      by_cases hc : w.creatable (cstr (fileAt a args (c + 1))) = true
      · obtain ⟨cr, hsave, -⟩ := save_eq enc w (fileAt a args (c + 1)) im hc
        simp only [written]
        rw [hsave]
        exact if_neg (by rw [hnul]; exact ho.1)
      · simp only [saveImage, World.openWrite]
        rw [if_neg hc]
    · trivial

end Verif.Itk
