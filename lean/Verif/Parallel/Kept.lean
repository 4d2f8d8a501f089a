import Verif.Parallel.Props
import Verif.Xml.CrashProps

/-!
# Property C64: files that a run leaves as they are, and the baseline that is given as output
-/

namespace Verif.Parallel.Spec
open Verif.Regression Verif.Regression.Spec

/-- What the test itself does (other than measuring) leaves the file as it is. -/
def Leaves (file : Str) : Prog → Prop
  | .ret _ => True
  | .fails _ => True
  | .call _ k => ∀ r, Leaves file (k r)
  | .act f k => (∀ w : World, (f w).fs.stat file = w.fs.stat file ∧ (f w).fs.canRead file = w.fs.canRead file ∧ (f w).fs.canWrite file = w.fs.canWrite file ∧
      (f w).fs.canExec file = w.fs.canExec file ∧ (f w).bytes file = w.bytes file ∧ (f w).creatable file = w.creatable file) ∧ Leaves file k
  | .look k => ∀ w, Leaves file (k w)
  | .ask k => ∀ s, Leaves file (k s)
  | .setTolerance _ k => Leaves file k
  | .setExpected _ k => Leaves file k
  | .setImageTolerance _ k => Leaves file k
  | .setSearchPath _ k => Leaves file k
  | .prependSearchPath _ k => Leaves file k
  | .setInFileName _ k => Leaves file k
  | .setOutFileName _ k => Leaves file k

end Verif.Parallel.Spec

namespace Verif.Parallel
open Spec Verif.Regression Verif.Regression.Spec Verif.Xml Verif.Xml.Spec
open Verif.Path (FileSys isFile isReadable isWritable isDirectory searchPathList searchLoop)

theorem has_one (file m : Str) : Footprint.Has ⟨fun n => n = file, fun _ => False⟩ m ↔ cstr file = m := by
  constructor
  · rintro ⟨n, rfl, h | ⟨d, _, hd, _⟩⟩
    · exact h
    · exact hd.elim
  · exact fun h => ⟨file, rfl, Or.inl h⟩

theorem leaves_spares {file : Str} (hf : cstr file = file) : ∀ q : Prog, Leaves file q → Spares ⟨fun n => n = file, fun _ => False⟩ q := by
  intro q
  induction q with
  | ret v => exact fun _ => trivial
  | fails f => exact fun _ => trivial
  | call c k ih => exact fun h r => ih r (h r)
  | act f k ih =>
    refine fun h => ⟨fun w n hn => ?_, ih h.2⟩
    rw [has_one, hf] at hn
    subst hn
    obtain ⟨h1, h2, h3, h4, h5, h6⟩ := h.1 w
    exact ⟨h1.symm, h2.symm, h3.symm, h4.symm, h5.symm, h6.symm⟩
  | look k ih => exact fun h w => ih w (h w)
  | ask k ih => exact fun h s => ih s (h s)
  | setTolerance _ k ih => exact fun h => ih h
  | setExpected _ k ih => exact fun h => ih h
  | setImageTolerance _ k ih => exact fun h => ih h
  | setSearchPath _ k ih => exact fun h => ih h
  | prependSearchPath _ k ih => exact fun h => ih h
  | setInFileName _ k ih => exact fun h => ih h
  | setOutFileName _ k ih => exact fun h => ih h

/-- **C64.** A run changes no file but its output: a file that no `-O` names (and no earlier setting), and that the test itself leaves alone, is after `Main` as it was before, with its permissions,
whatever the command line is, whether the run compares or records, and however it ends.  So the baseline, wherever it is found, the recorded images and the files that are measured stay as they are. -/
theorem C64_file_kept (x : Start) (g : Files) (file : Str) (hname : cstr file = file) (hO : ∀ v, Given b!"-O" v x.argv → cstr v ≠ file) (hbefore : x.obj.outFileName = [] ∨ cstr x.obj.outFileName ≠ file)
    (hos : x.obj.os = none) (htest : ∀ args, Leaves file (x.test args)) :
    let after := (main x.env x.test x.fuel x.argv (x.state g)).1.world
    after.bytes file = g.bytes file ∧ after.fs.stat file = g.fs.stat file ∧ after.fs.canRead file = g.fs.canRead file ∧ after.fs.canWrite file = g.fs.canWrite file := by
  intro after
  obtain ⟨n, hn⟩ := C116_alone x g
  obtain ⟨h1, -⟩ := hn n (le_refl n)
  have hfar : Far ⟨fun n => n = file, fun _ => False⟩ x.process := far_start ⟨fun v hv => by rw [has_one, hname]; exact fun h => hO v hv h.symm,
    hbefore.imp id fun h => by rw [has_one, hname]; exact fun e => h e.symm, hos, fun args => leaves_spares hname _ (htest args)⟩
  have hsteps : ∀ (n : Nat) (g : Files) (p : Process), Far ⟨fun n => n = file, fun _ => False⟩ p → Same ⟨fun n => n = file, fun _ => False⟩ g (alone n (g, p)).1 := by
    intro n
    induction n with
    | zero => exact fun g p _ => same_refl _ g
    | succ n ih => exact fun g p hp => same_trans (step_far g hp).1 (ih _ _ (step_far g hp).2)
  obtain ⟨e1, e2, e3, -, e5, -⟩ := hsteps n g x.process hfar file ((has_one file file).mpr hname)
  rw [h1] at e1 e2 e3 e5
  exact ⟨e5.symm, e1.symm, e2.symm, e3.symm⟩

theorem search_stat {fs fs' : FileSys} (h : fs.stat = fs'.stat) (name : Str) : ∀ (ps : List Str) (full : Str), searchLoop fs name ps full = searchLoop fs' name ps full := by
  intro ps
  induction ps with
  | nil => intro full; simp [searchLoop, isFile, h]
  | cons d ps ih =>
    intro full
    have e : isFile fs (Path.append d name) = isFile fs' (Path.append d name) := by rw [isFile, isFile, h]
    rw [searchLoop, searchLoop]
    simp only [e, ih]

/-- **C64, negative.** A run that is given as output the very file that is found as its baseline: the baseline is emptied before it is read, so it is lost, the test is never run, and `Main` does not return 0
(it returns -1; or one more than the failures counted before, if -R tells it to expect -1). -/
theorem C64_same_file_fails (X : Expat) (hX : RejectsTruncated X) (env : Env) (test : List Str → Prog) (fuel : Nat) (prog : Str) (ps : List (Str × Str)) (args : List Str)
    (hopt : ∀ p ∈ ps, IsOption p.1) (s : St) (href : ∀ p ∈ ps, ¬ Refused s.world.fs p) (hstop : Stops args) (hfuel : ps.length < fuel)
    (hos : s.obj.os = none) (hcount : 0 ≤ s.obj.unmatched) (f o : Str) (hI : lastValue b!"-I" ps = some f) (hO : lastValue b!"-O" ps = some o) (hf : f ≠ []) (ho : o ≠ [])
    (found : Str) (hfound : found = if searchPathList s.world.fs f ((values b!"-P" ps).reverse ++ s.obj.searchPath) = [] then f else searchPathList s.world.fs f ((values b!"-P" ps).reverse ++ s.obj.searchPath))
    (hsame : cstr o = cstr found) (hstat : s.world.fs.stat (cstr found) = some .regular) (hread : s.world.fs.canRead (cstr found) = true) (hwrite : s.world.fs.canWrite (cstr found) = true)
    (hcreate : s.world.creatable (cstr found) = true) :
    let r := main (withXML X env) test fuel (prog :: (flat ps ++ args)) s
    r.1.world.bytes (cstr found) = [] ∧ r.2 ≠ .ok 0 ∧ (∀ v, r.2 = .ok v → v = -1 ∨ v = s.obj.unmatched + 1) ∧
    (∀ test', main (withXML X env) test' fuel (prog :: (flat ps ++ args)) s = r) ∧ ∀ m, m ≠ cstr found → r.1.world.bytes m = s.world.bytes m := by
  intro r
  have hp := C35_options_removed s.world.fs fuel { s.obj with unmatched := s.obj.unmatched + 1 } prog ps args hopt href hstop hfuel
  have hw : (isFile s.world.fs o && !isWritable s.world.fs o) = false := by simp [isFile, isWritable, isDirectory, hsame, hstat, hwrite]
  rw [hI, hO] at hp
  simp only [hw, Bool.false_eq_true, if_false] at hp
  obtain ⟨q, hq⟩ : ∃ q, q = (parseArguments s.world.fs fuel { s.obj with unmatched := s.obj.unmatched + 1 } (prog :: (flat ps ++ args))).1 := ⟨_, rfl⟩
  have hparse : parseArguments s.world.fs fuel { s.obj with unmatched := s.obj.unmatched + 1 } (prog :: (flat ps ++ args)) = (q, .ok (prog :: args)) := by rw [hq, hp]
  have q1 : q.inFileName = f := by rw [hq, hp]
  have q2 : q.outFileName = o := by rw [hq, hp]
  have q3 : q.searchPath = (values b!"-P" ps).reverse ++ s.obj.searchPath := by rw [hq, hp]
  have q4 : q.unmatched = s.obj.unmatched + 1 := by rw [hq, hp]
  clear hp hq
  obtain ⟨w, hw⟩ : ∃ w, s.world.openWrite o = some w := ⟨_, by rw [World.openWrite, hsame, if_pos hcreate]⟩
  have hw' := hw
  rw [World.openWrite, hsame, if_pos hcreate, Option.some.injEq] at hw'
  have w1 : w.fs.stat = s.world.fs.stat := by
    rw [← hw']
    funext m
    by_cases hm : m = cstr found
    · subst hm; simp [hstat]
    · simp [hm]
  have w2 : w.fs.canRead (cstr found) = true := by rw [← hw']; simp [hread]
  have w3 : w.bytes (cstr found) = [] := by rw [← hw']; simp
  have w4 : ∀ m, m ≠ cstr found → w.bytes m = s.world.bytes m := by intro m hm; rw [← hw']; simp [hm]
  have hopen : w.openRead found = some [] := by rw [World.openRead, w1, if_pos ⟨hstat, w2⟩, w3]
  have h1 : openOutput ⟨q, s.world⟩ = (⟨{ q with os := some o }, w⟩, .ok ()) := by simp only [openOutput, q2, ne_eq, ho, not_false_eq_true, if_true, hw]
  have hs : ({ q with os := some o } : Obj).searched w.fs = searchPathList s.world.fs f ((values b!"-P" ps).reverse ++ s.obj.searchPath) := by
    simp only [Obj.searched, q1, q3, searchPathList]
    exact search_stat w1 _ _ _
  have h2 : openInput ⟨{ q with os := some o }, w⟩ = (⟨{ q with os := some o, is := some [] }, w⟩, .ok ()) := by
    rw [openInput, if_pos (show ({ q with os := some o } : Obj).inFileName ≠ [] by rw [show ({ q with os := some o } : Obj).inFileName = f from q1]; exact hf)]
    dsimp only
    rw [hs, show ({ q with os := some o } : Obj).inFileName = f from q1, ← hfound, hopen]
  have hall : ∀ e : Fault, readXML X [] = .error e → beginMeasurement (withXML X env) ⟨q, s.world⟩ = (⟨{ q with os := some o, is := some [] }, w⟩, .error e) := by
    intro e he
    rw [beginMeasurement, h1]
    simp only [Res.andThen, h2]
    simp [startOrRead, St.compareMode, withXML, he]
  have hrd := C96_truncated_never_read X hX plainWorld plain_comment [] (by simp) [] _ (by decide) rfl
  rcases hrd with he | he
  · have hm : ∀ t, main (withXML X env) t fuel (prog :: (flat ps ++ args)) s = (⟨{ q with os := some o, is := some [] }, w⟩, .ok (if q.expected = -1 then q.unmatched else -1)) := by
      intro t
      simp only [main, tryBlock, hparse, hall _ he, mainValue]
      by_cases hx : q.expected = -1
      · simp [hx, St.compareMode]
      · simp [hx, Ne.symm hx]
    have hr : r = _ := hm test
    refine ⟨by rw [hr]; exact w3, ?_, ?_, fun t => by rw [hr, hm], fun m hm' => by rw [hr]; exact w4 m hm'⟩
    · rw [hr]
      simp only [ne_eq, Except.ok.injEq]
      split <;> omega
    · rw [hr]
      intro v hv
      simp only [Except.ok.injEq] at hv
      subst hv
      split
      · exact Or.inr q4
      · exact Or.inl rfl
  · have hm : ∀ t, main (withXML X env) t fuel (prog :: (flat ps ++ args)) s = (⟨{ q with os := some o, is := some [] }, w⟩, .error (.assertFail "!m")) := by
      intro t
      simp [main, tryBlock, hparse, hall _ he]
    have hr : r = _ := hm test
    refine ⟨by rw [hr]; exact w3, by rw [hr]; simp, by rw [hr]; simp, fun t => by rw [hr, hm], fun m hm' => by rw [hr]; exact w4 m hm'⟩

/-- The hypotheses are met: "t -P d -O d/b -I b", where the directory d holds the baseline b. -/
example : (main (withXML reference (smallEnv [])) (fun _ => .ret 0) 9 (b!"t" :: (flat [(b!"-P", b!"d"), (b!"-O", b!"d/b"), (b!"-I", b!"b")] ++ []))
    ⟨{}, { plainWorld with fs := { plainWorld.fs with stat := fun n => if n = b!"d" then some .directory else if n = b!"d/b" ∨ n = b!"b" then some .regular else none }, bytes := fun _ => b!"baseline" }⟩).2 ≠ .ok 0 :=
  (C64_same_file_fails reference reference_rejects_truncated (smallEnv []) (fun _ => .ret 0) 9 b!"t" [(b!"-P", b!"d"), (b!"-O", b!"d/b"), (b!"-I", b!"b")] [] (by simp [IsOption]) _
    (by
      intro p hp
      simp only [List.mem_cons, List.not_mem_nil, or_false] at hp
      rcases hp with rfl | rfl | rfl
      · rintro (⟨h, -⟩ | ⟨-, h⟩)
        · exact absurd h (by decide)
        · exact h (by decide)
      · rintro (⟨h, -⟩ | ⟨h, -⟩) <;> exact absurd h (by decide)
      · rintro (⟨-, h⟩ | ⟨h, -⟩)
        · exact h (by decide)
        · exact absurd h (by decide)) (by simp [Stops]) (by decide) rfl (by decide) b!"b" b!"d/b" (by decide) (by decide) (by decide) (by decide) b!"d/b" (by decide) rfl (by decide) (by decide) (by decide) (by decide)).2.1

/-- A comparison that writes to "o" leaves its baseline "b" alone, also if the two files differ. -/
example (g : Files) : (main (smallEnv [.data { kind := .num .integer, name := b!"n", content := b!"1" }]) (fun _ => .call (.integer 2 b!"n" false) fun _ => .ret 0) 9 [b!"t", b!"-I", b!"b", b!"-O", b!"o"]
    (({ env := smallEnv [], test := fun _ => .ret 0, fuel := 9, argv := [b!"t", b!"-I", b!"b", b!"-O", b!"o"] } : Start).state g)).1.world.bytes b!"b" = g.bytes b!"b" :=
  (C64_file_kept { env := smallEnv [.data { kind := .num .integer, name := b!"n", content := b!"1" }], test := fun _ => .call (.integer 2 b!"n" false) fun _ => .ret 0, fuel := 9, argv := [b!"t", b!"-I", b!"b", b!"-O", b!"o"] } g b!"b" (by decide) (by
    rintro v ⟨a, c, h⟩
    have hv : v = b!"o" := by
      rcases a with _ | ⟨a1, _ | ⟨a2, _ | ⟨a3, _ | ⟨a4, a5⟩⟩⟩⟩
      · simp at h
      · simp at h
      · simp at h
      · simp at h; exact h.2.2.2.1.symm
      · have := congrArg List.length h
        simp at this
        omega
    subst hv
    decide) (Or.inl rfl) rfl (fun _ _ => trivial)).1

end Verif.Parallel
