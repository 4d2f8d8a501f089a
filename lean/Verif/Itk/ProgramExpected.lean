import Verif.Itk.ProgramProps
import Verif.Itk.ProgramExample

/-!
# C110: the image comparison program with `-R`
-/

namespace Verif.Itk
open Spec Verif.Regression Verif.Regression.Spec Verif.Measurement Verif.Path Verif.Path.Spec Verif.Xml

/-- **C110, negative.** The program with a baseline and an expected return value `-R v`: if `v` is not (a text read as) 0 it returns 0 whenever all the images to be compared can be read, however many of
them are not like the recorded ones; for 0 it returns their number, as without `-R`.  If one of them cannot be read it returns -1, or a positive number if -1 is expected. -/
theorem C110_expected (I : Toolkit) (hI : Sound I) (env : Env) (dec : Str → Option Loaded) (hR : ReadsFiles I dec) (henv : env.image = some I.imageEnv) (rd : Readers) (dataDir : Str)
    (fuel : Nat) (w : World) (prog : Str) (ps : List (Str × Str)) (args : List Str) (hopt : ∀ p ∈ ps, IsOption p.1) (href : ∀ p ∈ ps, ¬ Refused w.fs p) (hfuel : ps.length < fuel)
    (name file bytes : Str) (bs : List Meas) (hi : lastValue b!"-I" ps = some name) (hn : name ≠ []) (ho : lastValue b!"-O" ps = none) (v : Str) (hr : lastValue b!"-R" ps = some v)
    (hfile : LookedUp w.fs name ((values b!"-P" ps).reverse ++ [dataDir]) file) (hopen : w.openRead file = some bytes) (hxml : env.readXML bytes = .ok bs)
    (l : List (ImgTol × Str)) (hl : Reads rd.real rd.unsigned {} args l) (r : Option Nat) (hfound : Found I w ((values b!"-P" ps).reverse ++ [dataDir]) 0 bs l r) :
    (∀ n, r = some n → (imageCompare env rd dataDir fuel (prog :: (flat ps ++ args)) w).2 = .ok (if strtolInt v = 0 then n else 0)) ∧
    (r = none → strtolInt v ≠ -1 → (imageCompare env rd dataDir fuel (prog :: (flat ps ++ args)) w).2 = .ok (-1)) ∧
    (r = none → strtolInt v = -1 → ∃ k : Int, 0 < k ∧ (imageCompare env rd dataDir fuel (prog :: (flat ps ++ args)) w).2 = .ok k) := by
  have hstop := reads_stop _ _ _ _ _ hl
  have hlook := lookedUp_search _ _ _ _ hn hfile
  obtain ⟨s1, e1, e0, e2, e3, e4, e5, e6, e7, e8, e9, e10, e11⟩ := (C107_baseline_file env (imageTest rd) fuel ⟨itkObject dataDir, w⟩ prog ps args hopt href hstop hfuel name file hi hn ho rfl
    (by simpa [itkObject] using hfile)).2 bytes bs hopen hxml
  have he7 : s1.obj.searchPath = (values b!"-P" ps).reverse ++ [dataDir] := by rw [e7]; simp [itkObject]
  have he8 : s1.obj.expected = strtolInt v := by rw [e8, hr]
  have hdoes := loop_found I hI env dec hR henv rd w _ (by simp) bytes {} args l hl 0 bs r hfound s1 e6 (by rw [e0]; rfl) e2 he7 (by rw [e1]) (by rw [e1])
  cases r with
  | none =>
    obtain ⟨s', m, hrun, ⟨u, i, t, ho'⟩, -⟩ := hdoes
    have hcount := runProg_count env (imageLoop rd {} 0 args) s1
    rw [show imageTest rd (prog :: args) = imageLoop rd {} 0 args from rfl, hrun] at e11
    rw [hrun] at hcount
    have hx := C38_exception_value env (imageTest rd) fuel _ _ _ _ _ e11
    have he : s'.obj.expected = strtolInt v := by rw [ho']; exact he8
    refine ⟨fun n h => by (cases h), fun _ h => hx.2.2.1 (by rw [he]; exact h), fun _ h => ?_⟩
    have hcm : s'.compareMode = true := compareMode_is (b := bytes) (by rw [ho']; exact e6)
    refine ⟨s'.obj.unmatched, ?_, ?_⟩
    · simp only at hcount
      rw [e4] at hcount
      simp only [itkObject] at hcount
      omega
    · have := hx.2.2.2 (by rw [he]; exact h)
      rw [hcm] at this
      exact this
  | some n =>
    refine ⟨fun n' hn' => ?_, fun h => (nomatch h), fun h => (nomatch h)⟩
    cases hn'
    obtain ⟨s', hrun, hu, ⟨u, i, t, ho'⟩, hfs, -⟩ := hdoes
    rw [show imageTest rd (prog :: args) = imageLoop rd {} 0 args from rfl, hrun] at e11
    have hcm : s'.compareMode = true := compareMode_is (b := bytes) (by rw [ho']; exact e6)
    have hreg : w.fs.stat (cstr file) = some .regular ∧ w.fs.canRead (cstr file) = true := by
      simp only [World.openRead] at hopen
      split at hopen
      · assumption
      · cases hopen
    have hpres : baselinePresent { s'.obj with input := [], os := none, is := none, unmatched := s'.obj.unmatched - 1 } s'.world.fs := by
      have h1 : s'.obj.inFileName = name ∧ s'.obj.searchPath = (values b!"-P" ps).reverse ++ [dataDir] := by rw [ho']; exact ⟨e5, he7⟩
      refine ⟨by rw [h1.1]; exact hn, ?_⟩
      simp only
      rw [h1.1, h1.2, hfs, e1, hlook]
      simp [isFile, isReadable, isDirectory, hreg]
    have hcm2 : St.compareMode ⟨{ s'.obj with input := [], os := none, is := none, unmatched := s'.obj.unmatched - 1 }, s'.world⟩ = true :=
      (compareMode_noStream _ rfl).mpr hpres
    have hexp : s'.obj.expected = strtolInt v := by rw [ho']; exact he8
    simp only [imageCompare, main, e11, mainValue, endMeasurement, hcm, if_true]
    by_cases h0 : strtolInt v = 0
    · rw [if_neg (by simp [hexp, h0]), if_pos hcm2, hu, e4, if_pos h0]
      simp only [itkObject]
      congr 1
      omega
    · rw [if_pos (by rw [hexp]; exact fun h => h0 h.symm), if_neg h0]

/-- The second image differs from the recorded one; with `-R 1` this is success. -/
example : (imageCompare { rowEnv with readXML := fun _ => .ok [imageEntry 0 b!"r0.mha", imageEntry 1 b!"old/r1.mha"] } threes b!"/data" 9
    [b!"prog", b!"-R", b!"1", b!"-I", b!"/base/f", b!"a.mha", b!"--radiusTolerance", b!"3", b!"x/b.mha"] rowsDisk).2 = .ok 0 :=
  (C110_expected rowKit rowKit_sound _ readRow rowKit_reads rfl threes b!"/data" 9 rowsDisk b!"prog" [(b!"-R", b!"1"), (b!"-I", b!"/base/f")] [b!"a.mha", b!"--radiusTolerance", b!"3", b!"x/b.mha"]
    (by simp [IsOption]) (by
      intro p hp
      simp only [List.mem_cons, List.not_mem_nil, or_false] at hp
      rcases hp with rfl | rfl
      · rintro (⟨h, -⟩ | ⟨h, -⟩) <;> revert h <;> decide
      · exact base_accepted _ (by simp)) (by decide) b!"/base/f" b!"/base/f" b!"doc" _ (by simp [lastValue]) (by decide) (by simp [lastValue]) b!"1" (by simp [lastValue]) (base_found _) rfl rfl _
    rows_two (some 1)
    (.alike 0 _ _ _ _ _ _ b!"r0.mha" b!"r0.mha" b!"/data/r0.mha" _ _ ⟨_, rfl, rfl, rfl, rfl⟩ ⟨by decide, .inl rfl⟩ (by decide) (in_data b!"r0.mha" (by decide) _) rows_read.1 rows_read.2.2.1 (row_self 3 _)
      (.unlike 1 _ _ _ _ _ (some 0) b!"old/r1.mha" b!"r1.mha" b!"/data/r1.mha" _ _ ⟨_, rfl, rfl, rfl, rfl⟩ ⟨by decide, .inr ⟨b!"old", rfl⟩⟩ (by decide) (in_data b!"r1.mha" (by decide) _) rows_read.2.1 rows_read.2.2.2.1
        (row_other 5 4 _ (by decide)) (.done _ _)))).1 1 rfl

/-- **C110, negative.** Without `-I` and `-O` nothing is compared with anything: the program returns 0 for all images and tolerances, whether the images exist or not, and whatever return value is expected; no
file is changed. -/
theorem C110_no_baseline (env : Env) (rd : Readers) (dataDir : Str) (fuel : Nat) (w : World) (prog : Str) (ps : List (Str × Str)) (args : List Str) (hopt : ∀ p ∈ ps, IsOption p.1)
    (href : ∀ p ∈ ps, ¬ Refused w.fs p) (hfuel : ps.length < fuel) (hi : lastValue b!"-I" ps = none) (ho : lastValue b!"-O" ps = none)
    (l : List (ImgTol × Str)) (hl : Reads rd.real rd.unsigned {} args l) :
    let run := imageCompare env rd dataDir fuel (prog :: (flat ps ++ args)) w
    run.2 = .ok 0 ∧ run.1.world.fs = w.fs ∧ run.1.world.bytes = w.bytes := by
  have hp := C35_options_removed w.fs fuel { itkObject dataDir with unmatched := (itkObject dataDir).unmatched + 1 } prog ps args hopt href (reads_stop _ _ _ _ _ hl) hfuel
  rw [hi, ho] at hp
  obtain ⟨o, hoo⟩ : ∃ o, o = (parseArguments w.fs fuel { itkObject dataDir with unmatched := (itkObject dataDir).unmatched + 1 } (prog :: (flat ps ++ args))).1 := ⟨_, rfl⟩
  have hp1 : parseArguments w.fs fuel { itkObject dataDir with unmatched := (itkObject dataDir).unmatched + 1 } (prog :: (flat ps ++ args)) = (o, .ok (prog :: args)) := by rw [hoo, hp]
  rw [hp] at hoo
  have o1 : o.is = none ∧ o.inFileName = [] ∧ o.outFileName = [] ∧ o.os = none := by rw [hoo]; exact ⟨rfl, rfl, rfl, rfl⟩
  obtain ⟨o1, o2, o3, o4⟩ := o1
  clear hoo hp
  obtain ⟨s1, hs1⟩ : ∃ s1 : St, s1 = { obj := o, world := { w with cout := w.cout ++ header w } } := ⟨_, rfl⟩
  have hbegin : beginMeasurement env ⟨o, w⟩ = (s1, .ok ()) := by
    have hc : St.compareMode ⟨o, w⟩ = false := Xml.recording _ o1 o2
    simp only [beginMeasurement, openOutput, openInput, o2, o3, ne_eq, not_true_eq_false, if_false, Res.andThen, startOrRead, hc, Bool.false_eq_true, St.emit, o4, hs1]
  obtain ⟨s2, hrun, hfs2, hby2⟩ := loop_record env rd {} args l hl 0 s1 (by rw [hs1]; exact o1) (by rw [hs1]; exact o2)
  have hrun' : runProg env (imageTest rd (prog :: args)) s1 = (s2, .ok 0) := hrun
  have hlast := C41_record_lines env (imageTest rd (prog :: args)) s1 (by rw [hs1]; exact o1) (by rw [hs1]; exact o2) ((loop_settled rd _ _ _ _ (Nat.le_refl _)).2 _)
  rw [hrun'] at hlast
  obtain ⟨-, q1, q2, q3⟩ := hlast
  simp only at q1 q2 q3
  have q1' : s2.obj.os = none := by rw [q1, hs1]; exact o4
  have hrec := Xml.recording s2 q2 q3
  have key : tryBlock env (imageTest rd) fuel (prog :: (flat ps ++ args)) ⟨itkObject dataDir, w⟩ =
      (⟨{ s2.obj with os := none, is := none, unmatched := s2.obj.unmatched - 1 }, { s2.world with cout := s2.world.cout ++ footer }⟩, 0, none) := by
    simp only [tryBlock, hp1, hbegin, hrun', endMeasurement, hrec, Bool.false_eq_true, if_false, St.emit, q1']
  have hc2 : St.compareMode ⟨{ s2.obj with os := none, is := none, unmatched := s2.obj.unmatched - 1 }, { s2.world with cout := s2.world.cout ++ footer }⟩ = false := Xml.recording _ rfl q3
  have hmain : mainValue ⟨{ s2.obj with os := none, is := none, unmatched := s2.obj.unmatched - 1 }, { s2.world with cout := s2.world.cout ++ footer }⟩ 0 = 0 := by
    rw [mainValue, hc2]
    split <;> rfl
  simp only [imageCompare, main, key, hmain]
  refine ⟨trivial, ?_, ?_⟩
  · rw [hfs2, hs1]
  · funext m
    rw [hby2 m (by rw [hs1]; intro o' h; rw [o4] at h; cases h), hs1]

/-- The program with an image that does not exist. -/
example : (imageCompare rowEnv threes b!"/data" 9 [b!"prog", b!"missing.mha"] rowsDisk).2 = .ok 0 :=
  (C110_no_baseline rowEnv threes b!"/data" 9 rowsDisk b!"prog" [] [b!"missing.mha"] (by simp) (by simp) (by decide) (by simp [lastValue]) (by simp [lastValue]) [({}, b!"missing.mha")]
    (.image _ _ _ _ (by decide) (.done _))).1

end Verif.Itk
