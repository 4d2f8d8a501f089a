import Verif.Pipe.Props
import Verif.Pipe.RunSpec
import Verif.Whole.Props
import Verif.Itk.DataDirProps

/-!
# Property C115: recording and comparing the output of commands, end to end
-/

set_option linter.unusedSimpArgs false

namespace Verif.Pipe
open Spec Verif.Regression Verif.Regression.Spec Verif.Measurement Verif.Measurement.Spec Verif.Xml Verif.Xml.Spec Verif.Whole
open Verif.Path (isFile isReadable isWritable isDirectory searchPathList)
open Verif.Itk (lookedUp_search C107_baseline_file)
open Verif.Itk.Spec (LookedUp)

theorem result_ret (c : Child) (v : Int) (h : Result c v) : retOf c.final = v := by
  cases h with
  | exited _ h => rw [h]; rfl
  | other h =>
    rcases hf : c.final <;> simp only [retOf]
    next x => exact absurd hf (h x)

theorem test_straight (env : Env) (launch : Launch) (prog : Str) (args : List Str) (v : Int) (hv : Result (launch args) v) (s : St) :
    runProg env (test launch (prog :: args)) s = runProg env (straight v [.textPlain (everything (launch args)) b!"stdout"]) (announced s args) ∧
    observed env (test launch (prog :: args)) s = observed env (straight v [.textPlain (everything (launch args)) b!"stdout"]) (announced s args) := by
  have he : readLoop (launch args).chunks [] = everything (launch args) := by rw [readLoop_eq, everything, List.nil_append]
  simp only [test, straight, runProg, observed, he, echoLoop_eq, result_ret _ _ hv, toCout, announced, and_self]

/-- What the command wrote, as it is recorded. -/
def entry (text : Str) : Meas := .data { kind := .plain, name := b!"stdout", content := text }

theorem entry_clean (text : Str) (h : ∀ c ∈ text, Printable c) : Clean (recordedMeas (.textPlain text b!"stdout")) :=
  recorded_clean (.textPlain text b!"stdout") { kind := .plain, name := b!"stdout", content := text } rfl (by show ∀ c ∈ b!"stdout", AttrChar c; decide) h

/-- Recording: what `Main` returns and the document that is left. -/
theorem record_pipe (X : Expat) (env : Env) (launch : Launch) (prog : Str) (ps : List (Str × Str)) (args : List Str) (fuel : Nat) (w : World) (f : Str) (v : Int)
    (hopt : ∀ p ∈ ps, IsOption p.1) (href : ∀ p ∈ ps, ¬ Refused w.fs p) (hstop : Stops args) (hfuel : ps.length < fuel)
    (hI : lastValue b!"-I" ps = none) (hO : lastValue b!"-O" ps = some f) (hf : f ≠ []) (hcreate : w.creatable (cstr f) = true)
    (hnew : w.fs.stat (cstr f) = none ∨ (w.fs.canRead (cstr f) = true ∧ w.fs.canWrite (cstr f) = true)) (hv : Result (launch args) v) :
    (main (withXML X env) (test launch) fuel (prog :: (flat ps ++ args)) ⟨{}, w⟩).2 = .ok (if v = expectation ps then 0 else v) ∧
    (main (withXML X env) (test launch) fuel (prog :: (flat ps ++ args)) ⟨{}, w⟩).1.world.openRead f =
      some (header w ++ ([Call.textPlain (everything (launch args)) b!"stdout"].map fun c => line (recordedMeas c)).flatten ++ footer) := by
  have hnw : (isFile w.fs f && !isWritable w.fs f) = false := by
    rcases hnew with h | ⟨_, h⟩
    · simp [isFile, h]
    · by_cases hd : w.fs.stat (cstr f) = some .regular <;> simp [isWritable, isDirectory, isFile, h, hd]
  have hparse := C35_options_removed w.fs fuel { unmatched := 0 + 1 } prog ps args hopt href hstop hfuel
  rw [hI, hO] at hparse
  simp only [hnw, Bool.false_eq_true, if_false] at hparse
  obtain ⟨o, ho⟩ : ∃ o, o = (parseArguments w.fs fuel { unmatched := 0 + 1 } (prog :: (flat ps ++ args))).1 := ⟨_, rfl⟩
  have hp : parseArguments w.fs fuel { unmatched := 0 + 1 } (prog :: (flat ps ++ args)) = (o, .ok (prog :: args)) := by rw [ho, hparse]
  rw [hparse] at ho
  simp only at ho
  have ho1 : o.is = none := by rw [ho]
  have ho2 : o.inFileName = [] := by rw [ho]
  have ho3 : o.outFileName = f := by rw [ho]
  have ho4 : o.expected = expectation ps := by rw [ho]; rfl
  clear hparse ho
  have hkeep : Keeps (some o.outFileName) (test launch (prog :: args)) := by
    simp only [test, Keeps]
    exact ⟨fun w => rfl, fun _ => trivial⟩
  obtain ⟨s1, hbegin, hdoc, _⟩ := C41_recorded_document (withXML X env) (test launch) fuel (prog :: (flat ps ++ args)) ⟨{}, w⟩ o (prog :: args) hp ho1 ho2 (by rw [ho3]; exact hf) (by rw [ho3]; exact hcreate) hkeep
  have hs1 : s1.obj.is = none ∧ s1.obj.inFileName = [] ∧ s1.obj.os = some f ∧ s1.obj.expected = expectation ps ∧
      s1.world.fs.stat (cstr f) = some .regular ∧ s1.world.fs.canRead (cstr f) = true := by
    obtain ⟨w', hwr, hb, _⟩ := begin_record (withXML X env) ⟨o, w⟩ ho1 ho2 (by rw [ho3]; exact hf) (by rw [ho3]; exact hcreate)
    rw [hb] at hbegin
    cases hbegin
    rw [emit_obj]
    simp only [ho3] at hwr
    simp only [World.openWrite, if_pos hcreate, Option.some.injEq] at hwr
    subst hwr
    simp only [St.emit, if_true, and_true, true_and, ho1, ho2, ho3, ho4]
    rcases hnew with h | h
    · simp [h]
    · simp [h.1]
  obtain ⟨q1, q2, q3, q5, q6, q7⟩ := hs1
  obtain ⟨t1, t2⟩ := test_straight (withXML X env) launch prog args v hv s1
  obtain ⟨a1, a2, a3, a4, -⟩ := observed_straight_record (withXML X env) v [.textPlain (everything (launch args)) b!"stdout"] (announced s1 args) q1 q2
  rw [← t1] at a2 a3 a4
  rw [← t2] at a1
  have hbytes := hdoc v a2
  rcases hr : runProg (withXML X env) (test launch (prog :: args)) s1 with ⟨s2, r⟩
  rw [hr] at a2 a3 a4
  simp only at a2 a3 a4
  subst a2
  have hval := C38_record_value (withXML X env) (test launch) fuel (prog :: (flat ps ++ args)) ⟨{}, w⟩ o (prog :: args) s1 s2 v hp hbegin hr (by rw [a4]; exact q2)
  refine ⟨by rw [hval, a4]; show Except.ok (if v = s1.obj.expected then 0 else v) = _; rw [q5], ?_⟩
  have hfs : (main (withXML X env) (test launch) fuel (prog :: (flat ps ++ args)) ⟨{}, w⟩).1.world.fs = s1.world.fs := by
    have hrec : s2.compareMode = false := recording s2 (by rw [a4]; exact q1) (by rw [a4]; exact q2)
    simp only [main, tryBlock, hp, hbegin, hr, endMeasurement, hrec, Bool.false_eq_true, if_false]
    have : s2.world.fs = s1.world.fs := a3
    rw [← this, St.emit]
    split <;> rfl
  rw [World.openRead, if_pos (by rw [hfs]; exact ⟨q6, q7⟩)]
  rw [ho3] at hbytes
  rw [hbytes]
  have hl : (observed (withXML X env) (test launch (prog :: args)) s1).flatMap (fun x => line (recordedMeas x.call)) =
      ([Call.textPlain (everything (launch args)) b!"stdout"].map fun c => line (recordedMeas c)).flatten := by
    conv_rhs => rw [← a1]
    rw [List.map_map, List.flatMap_def]
    rfl
  rw [hl]

open Classical in
/-- Comparing: what `Main` returns, for a baseline that reads as text and numbers. -/
theorem compare_pipe (env : Env) (mem : (Int → Nat) × (Int → Nat)) (steps : Nat) (henv : env.diff = Diff.diff (some mem) steps) (bytes : Str) (ms : List Meas) (hread' : env.readXML bytes = .ok ms)
    (hms : ∀ b ∈ ms, Plainly b ∧ ∃ d, b = .data d)
    (launch' : Launch) (prog' : Str) (ps' : List (Str × Str)) (args' : List Str) (fuel' : Nat) (w2 : World) (name file : Str) (v' : Int)
    (hopt' : ∀ p ∈ ps', IsOption p.1) (href' : ∀ p ∈ ps', ¬ Refused w2.fs p) (hstop' : Stops args') (hfuel' : ps'.length < fuel')
    (hI' : lastValue b!"-I" ps' = some name) (hn : name ≠ []) (hO' : lastValue b!"-O" ps' = none) (hv' : Result (launch' args') v')
    (hfile : LookedUp w2.fs name (values b!"-P" ps').reverse file) (hdoc : w2.openRead file = some bytes)
    (hdiff : ∀ b ∈ ms, b.name = b!"stdout" → b.type = b!"text/plain" → Diff.Spec.Fits b.content (everything (launch' args')) ∧ Diff.Spec.TopClear b.content (everything (launch' args')) ∧
      Diff.Spec.Enough steps b.content (everything (launch' args'))) :
    (main env (test launch') fuel' (prog' :: (flat ps' ++ args')) ⟨{}, w2⟩).2 =
      .ok (if v' ≠ expectation ps' then v' else
        if ∃ d rest, ms = .data d :: rest ∧ d.name = b!"stdout" ∧ d.kind = .plain ∧ d.content = everything (launch' args') then 0 else 1) := by
  obtain ⟨-, h⟩ := C107_baseline_file env (test launch') fuel' ⟨{}, w2⟩ prog' ps' args' hopt' href' hstop' hfuel' name file hI' hn hO' rfl (by simpa using hfile)
  obtain ⟨s1, e1, -, e3, e4, e5, e6, e7, e8, e9, e10, -, htry⟩ := h bytes _ hdoc hread'
  obtain ⟨t1, t2⟩ := test_straight env launch' prog' args' v' hv' s1
  obtain ⟨s2, g1, g2, g3, g6, g4, g5⟩ := data_run env v' [.textPlain (everything (launch' args')) b!"stdout"] (announced s1 args') bytes e7 (by
      show ∀ b ∈ s1.obj.input, _
      rw [e3]
      exact hms) (by
      intro c hc
      rw [List.mem_singleton] at hc
      subst hc
      exact ⟨⟨_, rfl⟩, List.cons_ne_nil _ _⟩) (by
      intro b _ c hc
      rw [List.mem_singleton] at hc
      subst hc
      intro e d k _ hd _ hk
      cases hd
      cases hk) (by
      show ∀ b ∈ s1.obj.input, _
      rw [e3]
      intro b hb content name hc hbn hbt
      rw [List.mem_singleton] at hc
      cases hc
      rw [henv]
      obtain ⟨d1, d2, d3⟩ := hdiff b hb hbn hbt
      obtain ⟨t, ht⟩ := Diff.C15_total b.content (everything (launch' args')) d1 d2
      exact ⟨t, ht mem steps d3⟩)
  rw [← t1] at g1
  rw [← t2] at g4 g5
  obtain ⟨x, hx⟩ : ∃ x, observed env (test launch' (prog' :: args')) s1 = [x] := by
    rcases hobs : observed env (test launch' (prog' :: args')) s1 with _ | ⟨x, l⟩
    · rw [hobs] at g4; cases g4
    · rw [hobs] at g4
      rcases l with _ | ⟨y, l⟩
      · exact ⟨x, rfl⟩
      · simp at g4
  have hxc : x.call = .textPlain (everything (launch' args')) b!"stdout" := by
    rw [hx] at g4
    exact (List.cons.inj g4).1
  obtain ⟨c1, c2, c3⟩ := C39_positional_count env (test launch' (prog' :: args')) s1 bytes e7 (by
      rw [e3]
      exact fun b hb => (hms b hb).1) (by
      rw [hx]
      intro o ho
      rw [List.mem_singleton] at ho
      subst ho
      rw [hxc]; exact List.cons_ne_nil _ _) (by rw [g1]; rintro ⟨w, h⟩; cases h)
  rw [g1, e3, e5, hx] at c1
  rw [g1] at c3
  simp only at c1 c3
  have hcm : s2.compareMode = true := compareMode_is c3
  have hfail : failures env ms [x] = if ∃ d rest, ms = .data d :: rest ∧ d.name = b!"stdout" ∧ d.kind = .plain ∧ d.content = everything (launch' args') then 0 else 1 := by
    rcases ms with _ | ⟨m, rest⟩
    · rw [if_neg]
      · rfl
      · rintro ⟨d, rest, h, -⟩; cases h
    · obtain ⟨-, d, rfl⟩ := hms m (by simp)
      have hag : Agree env (.data d) x ↔ d.name = b!"stdout" ∧ d.kind = .plain ∧ d.content = everything (launch' args') := by
        rw [Agree, hxc]
        constructor
        · rintro ⟨h1, h2, h3⟩
          refine ⟨h1, typeName_injective d.kind .plain h2, ?_⟩
          simpa [SameValue, Call.meas] using h3
        · rintro ⟨h1, h2, h3⟩
          refine ⟨h1, by show d.kind.typeName = _; rw [h2]; rfl, ?_⟩
          simpa [SameValue, Call.meas] using h3
      by_cases h : d.name = b!"stdout" ∧ d.kind = .plain ∧ d.content = everything (launch' args')
      · rw [if_pos ⟨d, rest, rfl, h⟩]
        simp only [failures, if_pos (hag.mpr h)]
      · rw [if_neg]
        · simp only [failures, if_neg (fun h' => h (hag.mp h'))]
        · rintro ⟨d', rest', h1, h2⟩
          cases h1
          exact h h2
  simp only [main, htry, g1, mainValue, endMeasurement, hcm, if_true, g3]
  have hexp : (announced s1 args').obj.expected = expectation ps' := e9
  rw [hexp]
  by_cases hret : v' = expectation ps'
  · simp only [hret, ne_eq, not_true_eq_false, if_false]
    rw [if_pos]
    · rw [c1, hfail]
      split <;> rfl
    · rw [compareMode_noStream _ rfl]
      have hlook := lookedUp_search _ _ _ _ hn hfile
      have hin : s2.obj.inFileName = name := by rw [g6.1]; exact e6
      have hsp : s2.obj.searchPath = (values b!"-P" ps').reverse := by rw [g6.2]; show s1.obj.searchPath = _; rw [e8]; simp
      have hfs : s2.world.fs = w2.fs := by rw [g2]; show s1.world.fs = _; rw [e1]
      refine ⟨by rw [hin]; exact hn, ?_⟩
      simp only [hin, hsp, hfs, hlook]
      rw [World.openRead] at hdoc
      split at hdoc
      · next hs => simp [isFile, isReadable, isDirectory, hs.1, hs.2]
      · cases hdoc
  · simp [hret]

/-- **C115.** The output of a command is recorded by `tfPipeToXML`, and later that of a command is compared with the recording, each with any options.  The recording run returns 0 if the result of the
command is the one expected, and that result otherwise; the document is written in both cases.  The comparing run returns the result of the command if it is not the one expected; otherwise 0 if
everything the command wrote is what was recorded, and 1 if not. -/
theorem C115_record_and_compare (X : Expat) (hX : Conforms X) (mem : (Int → Nat) × (Int → Nat)) (steps : Nat)
    (launch : Launch) (prog : Str) (ps : List (Str × Str)) (args : List Str) (fuel : Nat) (w : World) (hw : Comment (commentText w)) (f : Str) (v : Int)
    (hopt : ∀ p ∈ ps, IsOption p.1) (href : ∀ p ∈ ps, ¬ Refused w.fs p) (hstop : Stops args) (hfuel : ps.length < fuel)
    (hI : lastValue b!"-I" ps = none) (hO : lastValue b!"-O" ps = some f) (hf : f ≠ []) (hcreate : w.creatable (cstr f) = true)
    (hnew : w.fs.stat (cstr f) = none ∨ (w.fs.canRead (cstr f) = true ∧ w.fs.canWrite (cstr f) = true)) (hv : Result (launch args) v)
    (htext : ∀ c ∈ everything (launch args), Printable c)
    (w1 : World) (hw1 : (program (whole X mem steps) launch fuel (prog :: (flat ps ++ args)) ⟨{}, w⟩).1.world = w1)
    (launch' : Launch) (prog' : Str) (ps' : List (Str × Str)) (args' : List Str) (fuel' : Nat) (w2 : World) (name file : Str) (v' : Int)
    (hopt' : ∀ p ∈ ps', IsOption p.1) (href' : ∀ p ∈ ps', ¬ Refused w2.fs p) (hstop' : Stops args') (hfuel' : ps'.length < fuel')
    (hI' : lastValue b!"-I" ps' = some name) (hn : name ≠ []) (hO' : lastValue b!"-O" ps' = none) (hv' : Result (launch' args') v')
    (hfile : LookedUp w2.fs name (values b!"-P" ps').reverse file) (hdoc : w2.openRead file = w1.openRead f)
    (hdiff : Diff.Spec.Fits (everything (launch args)) (everything (launch' args')) ∧ Diff.Spec.TopClear (everything (launch args)) (everything (launch' args')) ∧
      Diff.Spec.Enough steps (everything (launch args)) (everything (launch' args'))) :
    (program (whole X mem steps) launch fuel (prog :: (flat ps ++ args)) ⟨{}, w⟩).2 = .ok (if v = expectation ps then 0 else v) ∧
    (program (whole X mem steps) launch' fuel' (prog' :: (flat ps' ++ args')) ⟨{}, w2⟩).2 =
      .ok (if v' ≠ expectation ps' then v' else if everything (launch' args') = everything (launch args) then 0 else 1) := by
  obtain ⟨g1, g2⟩ := record_pipe X { num := Decimal.ieee, readXML := fun _ => .ok [], diff := Diff.diff (some mem) steps } launch prog ps args fuel w f v hopt href hstop hfuel hI hO hf hcreate hnew hv
  refine ⟨g1, ?_⟩
  rw [program] at hw1
  rw [← whole, hw1] at g2
  have hread := read_recording X hX [Call.textPlain (everything (launch args)) b!"stdout"] w hw (by
    intro c hc
    rw [List.mem_singleton] at hc
    subst hc
    exact entry_clean _ htext)
  generalize header w ++ ([Call.textPlain (everything (launch args)) b!"stdout"].map fun c => line (recordedMeas c)).flatten ++ footer = bytes at g2 hread
  rw [g2] at hdoc
  have hread' : (whole X mem steps).readXML bytes = .ok [entry (everything (launch args))] := hread
  have henv : (whole X mem steps).diff = Diff.diff (some mem) steps := rfl
  generalize whole X mem steps = env at hread' henv ⊢
  rw [program, compare_pipe env mem steps henv bytes _ hread' (by
      intro b hb
      rw [List.mem_singleton] at hb
      subst hb
      exact ⟨⟨rfl, by simp⟩, _, rfl⟩) launch' prog' ps' args' fuel' w2 name file v' hopt' href' hstop' hfuel' hI' hn hO' hv' hfile hdoc (by
      intro b hb _ _
      rw [List.mem_singleton] at hb
      subst hb
      exact hdiff)]
  have hiff : (∃ d rest, [entry (everything (launch args))] = .data d :: rest ∧ d.name = b!"stdout" ∧ d.kind = .plain ∧ d.content = everything (launch' args')) ↔
      everything (launch' args') = everything (launch args) := by
    constructor
    · rintro ⟨d, rest, h, -, -, h3⟩
      cases h
      exact h3.symm
    · intro h
      exact ⟨_, _, rfl, rfl, rfl, h.symm⟩
  simp only [hiff]

/-- **C115.** The comparing run passes (returns 0) exactly if the command has the expected result and wrote what was recorded, or if the command succeeded although another result was expected; in the
second case nothing is asked of what it wrote. -/
theorem C115_passes (X : Expat) (hX : Conforms X) (mem : (Int → Nat) × (Int → Nat)) (steps : Nat)
    (launch : Launch) (prog : Str) (ps : List (Str × Str)) (args : List Str) (fuel : Nat) (w : World) (hw : Comment (commentText w)) (f : Str) (v : Int)
    (hopt : ∀ p ∈ ps, IsOption p.1) (href : ∀ p ∈ ps, ¬ Refused w.fs p) (hstop : Stops args) (hfuel : ps.length < fuel)
    (hI : lastValue b!"-I" ps = none) (hO : lastValue b!"-O" ps = some f) (hf : f ≠ []) (hcreate : w.creatable (cstr f) = true)
    (hnew : w.fs.stat (cstr f) = none ∨ (w.fs.canRead (cstr f) = true ∧ w.fs.canWrite (cstr f) = true)) (hv : Result (launch args) v)
    (htext : ∀ c ∈ everything (launch args), Printable c)
    (w1 : World) (hw1 : (program (whole X mem steps) launch fuel (prog :: (flat ps ++ args)) ⟨{}, w⟩).1.world = w1)
    (launch' : Launch) (prog' : Str) (ps' : List (Str × Str)) (args' : List Str) (fuel' : Nat) (w2 : World) (name file : Str) (v' : Int)
    (hopt' : ∀ p ∈ ps', IsOption p.1) (href' : ∀ p ∈ ps', ¬ Refused w2.fs p) (hstop' : Stops args') (hfuel' : ps'.length < fuel')
    (hI' : lastValue b!"-I" ps' = some name) (hn : name ≠ []) (hO' : lastValue b!"-O" ps' = none) (hv' : Result (launch' args') v')
    (hfile : LookedUp w2.fs name (values b!"-P" ps').reverse file) (hdoc : w2.openRead file = w1.openRead f)
    (hdiff : Diff.Spec.Fits (everything (launch args)) (everything (launch' args')) ∧ Diff.Spec.TopClear (everything (launch args)) (everything (launch' args')) ∧
      Diff.Spec.Enough steps (everything (launch args)) (everything (launch' args'))) :
    (program (whole X mem steps) launch' fuel' (prog' :: (flat ps' ++ args')) ⟨{}, w2⟩).2 = .ok 0 ↔
      (v' = expectation ps' ∧ everything (launch' args') = everything (launch args)) ∨ (v' = 0 ∧ expectation ps' ≠ 0) := by
  rw [(C115_record_and_compare X hX mem steps launch prog ps args fuel w hw f v hopt href hstop hfuel hI hO hf hcreate hnew hv htext w1 hw1 launch' prog' ps' args' fuel' w2 name file v'
    hopt' href' hstop' hfuel' hI' hn hO' hv' hfile hdoc hdiff).2]
  by_cases h1 : v' = expectation ps'
  · rw [if_neg (not_not.mpr h1)]
    by_cases h2 : everything (launch' args') = everything (launch args)
    · simp [h1, h2]
    · rw [if_neg h2]
      simp only [Except.ok.injEq, h2, and_false, false_or]
      constructor
      · intro h; cases h
      · rintro ⟨h3, h4⟩; rw [h1] at h3; exact absurd h3 h4
  · rw [if_pos h1]
    simp only [Except.ok.injEq, h1, false_and, false_or]
    constructor
    · intro h; exact ⟨h, fun h' => h1 (h.trans h'.symm)⟩
    · exact fun h => h.1

/-! ## Recording to standard output -/

/-- **C115.** Recording without an output file: standard output gets the header of the document, then the line that announces the command, then the measurement and the end of the document. -/
theorem C115_standard_output (X : Expat) (env : Env) (launch : Launch) (prog : Str) (ps : List (Str × Str)) (args : List Str) (fuel : Nat) (w : World) (v : Int)
    (hopt : ∀ p ∈ ps, IsOption p.1) (href : ∀ p ∈ ps, ¬ Refused w.fs p) (hstop : Stops args) (hfuel : ps.length < fuel)
    (hI : lastValue b!"-I" ps = none) (hO : lastValue b!"-O" ps = none) (hv : Result (launch args) v) :
    (program (withXML X env) launch fuel (prog :: (flat ps ++ args)) ⟨{}, w⟩).2 = .ok (if v = expectation ps then 0 else v) ∧
    (program (withXML X env) launch fuel (prog :: (flat ps ++ args)) ⟨{}, w⟩).1.world =
      { w with cout := w.cout ++ (header w ++ (b!"Redirecting output from: \"" ++ commandLine args ++ b!"\"\n") ++ line (entry (everything (launch args))) ++ footer) } := by
  have hparse := C35_options_removed w.fs fuel { unmatched := 0 + 1 } prog ps args hopt href hstop hfuel
  rw [hI, hO] at hparse
  obtain ⟨o, ho⟩ : ∃ o, o = (parseArguments w.fs fuel { unmatched := 0 + 1 } (prog :: (flat ps ++ args))).1 := ⟨_, rfl⟩
  have hp : parseArguments w.fs fuel { unmatched := 0 + 1 } (prog :: (flat ps ++ args)) = (o, .ok (prog :: args)) := by rw [ho, hparse]
  rw [hparse] at ho
  simp only at ho
  have ho1 : o.is = none := by rw [ho]
  have ho2 : o.inFileName = [] := by rw [ho]
  have ho3 : o.outFileName = [] := by rw [ho]
  have ho4 : o.expected = expectation ps := by rw [ho]; rfl
  have ho5 : o.os = none := by rw [ho]
  clear hparse ho
  have hc1 : ∀ w', St.compareMode ⟨o, w'⟩ = false := fun w' => recording _ ho1 ho2
  have hbegin : beginMeasurement (withXML X env) ⟨o, w⟩ = (⟨o, { w with cout := w.cout ++ header w }⟩, .ok ()) := by
    simp [beginMeasurement, openOutput, ho3, Res.andThen, openInput, ho2, startOrRead, hc1, St.emit, ho5]
  obtain ⟨t1, -⟩ := test_straight (withXML X env) launch prog args v hv ⟨o, { w with cout := w.cout ++ header w }⟩
  have hcall := runCall_record (withXML X env) (announced ⟨o, { w with cout := w.cout ++ header w }⟩ args) (.textPlain (everything (launch args)) b!"stdout") ho1 ho2
  have hrun : runProg (withXML X env) (test launch (prog :: args)) ⟨o, { w with cout := w.cout ++ header w }⟩ =
      (⟨o, { w with cout := w.cout ++ header w ++ (b!"Redirecting output from: \"" ++ commandLine args ++ b!"\"\n") ++ line (entry (everything (launch args))) }⟩, .ok v) := by
    rw [t1]
    simp only [straight, runProg, hcall]
    simp [announced, St.emit, ho5, entry, recordedMeas, Call.meas]
  rw [program]
  constructor
  · rw [C38_record_value (withXML X env) (test launch) fuel (prog :: (flat ps ++ args)) ⟨{}, w⟩ o (prog :: args) _ _ v hp hbegin hrun ho2]
    simp only [ho4]
  · simp only [main, tryBlock, hp, hbegin, hrun, endMeasurement, hc1, Bool.false_eq_true, if_false, St.emit, ho5]
    simp [List.append_assoc]

theorem content_letters (t : Str) (h : ∀ c ∈ t, TextChar c) : Content t (letters t) := by
  induction t with
  | nil => exact .nil
  | cons c t ih => exact .char c t _ (h c (by simp)) (ih (fun x hx => h x (by simp [hx])))

/-- What the arguments contribute, read as XML. -/
theorem words_content (l : List Str) (ms : List Meas) (h : Injected l ms) : ∃ es, Content (l.map (b!" " ++ ·)).flatten es ∧
    ∀ pd : ParseData, pd.depth = 1 → pd.m = none → pd.data = [] → onEvents pd es = .ok { pd with measurements := pd.measurements ++ ms } := by
  induction h with
  | nil => exact ⟨[], .nil, fun pd _ _ _ => by simp [onEvents]⟩
  | harmless a l ms ha _ ih =>
    obtain ⟨es, h1, h2⟩ := ih
    refine ⟨letters (b!" " ++ a) ++ es, ?_, ?_⟩
    · rw [List.map_cons, List.flatten_cons]
      exact (content_letters _ (by
        intro c hc
        rcases List.mem_append.mp hc with hc | hc
        · rw [List.mem_singleton] at hc; subst hc; decide
        · exact ha c hc)).append h1
    · intro pd p1 p2 p3
      rw [onEvents_append, onEvents_letters_ignored _ _ (by omega)]
      exact h2 pd p1 p2 p3
  | element m a l ms hm ha _ ih =>
    obtain ⟨es, h1, h2⟩ := ih
    refine ⟨letters b!" " ++ (eventsOf m ++ es), ?_, ?_⟩
    · rw [List.map_cons, List.flatten_cons, List.append_assoc]
      exact (content_letters _ (by decide)).append ((print_content m a hm ha).append h1)
    · intro pd p1 p2 p3
      rw [onEvents_append, onEvents_letters_ignored _ _ (by omega)]
      simp only
      rw [onEvents_append, onEvents_clean pd m hm p1 p2 p3]
      simp only
      have := h2 { pd with measurements := pd.measurements ++ [m] } p1 p2 p3
      simp only at this
      rw [this]
      simp [List.append_assoc]

theorem command_content (l : List Str) (ms : List Meas) (h : Injected l ms) : ∃ es, Content (commandLine l) es ∧
    ∀ pd : ParseData, pd.depth = 1 → pd.m = none → pd.data = [] → onEvents pd es = .ok { pd with measurements := pd.measurements ++ ms } := by
  cases h with
  | nil => exact ⟨[], .nil, fun pd _ _ _ => by simp [onEvents]⟩
  | harmless a l ms ha h =>
    obtain ⟨es, h1, h2⟩ := words_content l ms h
    refine ⟨letters a ++ es, (content_letters _ ha).append h1, ?_⟩
    intro pd p1 p2 p3
    rw [onEvents_append, onEvents_letters_ignored _ _ (by omega)]
    exact h2 pd p1 p2 p3
  | element m a l ms hm ha h =>
    obtain ⟨es, h1, h2⟩ := words_content l ms h
    refine ⟨eventsOf m ++ es, (print_content m a hm ha).append h1, ?_⟩
    intro pd p1 p2 p3
    rw [onEvents_append, onEvents_clean pd m hm p1 p2 p3]
    simp only
    have := h2 { pd with measurements := pd.measurements ++ [m] } p1 p2 p3
    simp only at this
    rw [this]
    simp [List.append_assoc]

/-- The document on standard output, read back. -/
theorem read_standard_output (X : Expat) (hX : Conforms X) (w : World) (hw : Comment (commentText w)) (args : List Str) (ms : List Meas) (hargs : Injected args ms) (text : Str)
    (htext : ∀ c ∈ text, Printable c) :
    readXML X (header w ++ (b!"Redirecting output from: \"" ++ commandLine args ++ b!"\"\n") ++ line (entry text) ++ footer) = .ok (ms ++ [entry text]) := by
  obtain ⟨es, h1, h2⟩ := command_content args ms hargs
  obtain ⟨t, ht1, ht2⟩ := recorded_print (.textPlain text b!"stdout")
  have hent : recordedMeas (.textPlain text b!"stdout") = entry text := rfl
  have hcl := entry_clean text htext
  rw [hent] at ht1 ht2 hcl
  have hc := (((content_letters b!"Redirecting output from: \"" (by decide)).append h1).append (content_letters b!"\"\n" (by decide))).append
    (content_lines [entry text] [t] (.cons ht1 .nil) (by simpa using hcl))
  rw [List.append_assoc (header w), header_eq, ← ht2, show t ++ b!"\n" = [t].flatMap (· ++ b!"\n") by simp, readXML_body X hX w hw _ name_output _ _ hc]
  simp only [onEvents_append]
  rw [onEvents_letters_ignored _ _ (by simp)]
  simp only [h2 { depth := 1 } rfl rfl rfl]
  rw [onEvents_letters_ignored _ _ (by simp)]
  simp only
  rw [onEvents_lines _ _ (by simpa using hcl) rfl rfl rfl]
  simp [onEnd]

/-- **C115.** What was recorded on standard output is used as a baseline: the line with the command line is part of the document.  If the arguments have no `&`, `<` and `>` it does no harm: the command
passes exactly if it has the expected result and writes the same, or if it succeeds when another result is expected. -/
theorem C115_from_standard_output (X : Expat) (hX : Conforms X) (mem : (Int → Nat) × (Int → Nat)) (steps : Nat)
    (launch : Launch) (prog : Str) (ps : List (Str × Str)) (args : List Str) (fuel : Nat) (w : World) (hw : Comment (commentText w)) (v : Int)
    (hopt : ∀ p ∈ ps, IsOption p.1) (href : ∀ p ∈ ps, ¬ Refused w.fs p) (hstop : Stops args) (hfuel : ps.length < fuel)
    (hI : lastValue b!"-I" ps = none) (hO : lastValue b!"-O" ps = none) (hv : Result (launch args) v) (hargs : ∀ a ∈ args, ∀ c ∈ a, TextChar c)
    (htext : ∀ c ∈ everything (launch args), Printable c)
    (captured : Str) (hcap : (program (whole X mem steps) launch fuel (prog :: (flat ps ++ args)) ⟨{}, w⟩).1.world.cout = w.cout ++ captured)
    (launch' : Launch) (prog' : Str) (ps' : List (Str × Str)) (args' : List Str) (fuel' : Nat) (w2 : World) (name file : Str) (v' : Int)
    (hopt' : ∀ p ∈ ps', IsOption p.1) (href' : ∀ p ∈ ps', ¬ Refused w2.fs p) (hstop' : Stops args') (hfuel' : ps'.length < fuel')
    (hI' : lastValue b!"-I" ps' = some name) (hn : name ≠ []) (hO' : lastValue b!"-O" ps' = none) (hv' : Result (launch' args') v')
    (hfile : LookedUp w2.fs name (values b!"-P" ps').reverse file) (hdoc : w2.openRead file = some captured)
    (hdiff : Diff.Spec.Fits (everything (launch args)) (everything (launch' args')) ∧ Diff.Spec.TopClear (everything (launch args)) (everything (launch' args')) ∧
      Diff.Spec.Enough steps (everything (launch args)) (everything (launch' args'))) :
    (program (whole X mem steps) launch' fuel' (prog' :: (flat ps' ++ args')) ⟨{}, w2⟩).2 =
      .ok (if v' ≠ expectation ps' then v' else if everything (launch' args') = everything (launch args) then 0 else 1) := by
  have hout := (C115_standard_output X { num := Decimal.ieee, readXML := fun _ => .ok [], diff := Diff.diff (some mem) steps } launch prog ps args fuel w v hopt href hstop hfuel hI hO hv).2
  rw [← whole] at hout
  rw [hout] at hcap
  simp only [List.append_cancel_left_eq] at hcap
  have hinj : Injected args [] := by
    clear * - hargs
    induction args with
    | nil => exact .nil
    | cons a l ih => exact .harmless a l [] (hargs a (by simp)) (ih fun x hx => hargs x (by simp [hx]))
  have hread := read_standard_output X hX w hw args [] hinj _ htext
  rw [hcap] at hread
  have hread' : (whole X mem steps).readXML captured = .ok [entry (everything (launch args))] := hread
  rw [program, compare_pipe _ mem steps rfl captured _ hread' (by
      intro b hb
      rw [List.mem_singleton] at hb
      subst hb
      exact ⟨⟨rfl, by simp⟩, _, rfl⟩) launch' prog' ps' args' fuel' w2 name file v' hopt' href' hstop' hfuel' hI' hn hO' hv' hfile hdoc (by
      intro b hb _ _
      rw [List.mem_singleton] at hb
      subst hb
      exact hdiff)]
  have hiff : (∃ d rest, [entry (everything (launch args))] = .data d :: rest ∧ d.name = b!"stdout" ∧ d.kind = .plain ∧ d.content = everything (launch' args')) ↔
      everything (launch' args') = everything (launch args) := by
    constructor
    · rintro ⟨d, rest, h, -, -, h3⟩
      cases h
      exact h3.symm
    · intro h
      exact ⟨_, _, rfl, rfl, rfl, h.symm⟩
  simp only [hiff]

/-- **C115.** If instead some argument is the XML text of a measurement of text or a number, that measurement is the baseline: the same command that writes the same and has the expected result fails,
unless that measurement happens to be a plain text called "stdout" with what the command writes. -/
theorem C115_injection (X : Expat) (hX : Conforms X) (mem : (Int → Nat) × (Int → Nat)) (steps : Nat)
    (launch : Launch) (prog : Str) (ps : List (Str × Str)) (args : List Str) (fuel : Nat) (w : World) (hw : Comment (commentText w)) (v : Int)
    (hopt : ∀ p ∈ ps, IsOption p.1) (href : ∀ p ∈ ps, ¬ Refused w.fs p) (hstop : Stops args) (hfuel : ps.length < fuel)
    (hI : lastValue b!"-I" ps = none) (hO : lastValue b!"-O" ps = none) (hv : Result (launch args) v) (d : DataM) (ms : List Meas) (hargs : Injected args (.data d :: ms))
    (hms : ∀ b ∈ Meas.data d :: ms, Plainly b ∧ ∃ d, b = .data d) (hd : ∀ b ∈ Meas.data d :: ms, ¬ (b.name = b!"stdout" ∧ b.type = b!"text/plain"))
    (htext : ∀ c ∈ everything (launch args), Printable c)
    (captured : Str) (hcap : (program (whole X mem steps) launch fuel (prog :: (flat ps ++ args)) ⟨{}, w⟩).1.world.cout = w.cout ++ captured)
    (ps' : List (Str × Str)) (fuel' : Nat) (w2 : World) (name file : Str)
    (hopt' : ∀ p ∈ ps', IsOption p.1) (href' : ∀ p ∈ ps', ¬ Refused w2.fs p) (hfuel' : ps'.length < fuel')
    (hI' : lastValue b!"-I" ps' = some name) (hn : name ≠ []) (hO' : lastValue b!"-O" ps' = none) (hexp : v = expectation ps')
    (hfile : LookedUp w2.fs name (values b!"-P" ps').reverse file) (hdoc : w2.openRead file = some captured)
    (hdiff : Diff.Spec.Fits (everything (launch args)) (everything (launch args)) ∧ Diff.Spec.TopClear (everything (launch args)) (everything (launch args)) ∧
      Diff.Spec.Enough steps (everything (launch args)) (everything (launch args))) :
    (program (whole X mem steps) launch fuel' (prog :: (flat ps' ++ args)) ⟨{}, w2⟩).2 = .ok 1 := by
  have hout := (C115_standard_output X { num := Decimal.ieee, readXML := fun _ => .ok [], diff := Diff.diff (some mem) steps } launch prog ps args fuel w v hopt href hstop hfuel hI hO hv).2
  rw [← whole] at hout
  rw [hout] at hcap
  simp only [List.append_cancel_left_eq] at hcap
  have hread := read_standard_output X hX w hw args _ hargs _ htext
  rw [hcap] at hread
  have hread' : (whole X mem steps).readXML captured = .ok (.data d :: ms ++ [entry (everything (launch args))]) := hread
  rw [program, compare_pipe _ mem steps rfl captured _ hread' (by
      intro b hb
      rcases List.mem_append.mp hb with hb | hb
      · exact hms b hb
      rw [List.mem_singleton] at hb
      subst hb
      exact ⟨⟨rfl, by simp⟩, _, rfl⟩) launch prog ps' args fuel' w2 name file v hopt' href' hstop hfuel' hI' hn hO' hv hfile hdoc (by
      intro b hb h1 h2
      rcases List.mem_append.mp hb with hb | hb
      · exact absurd ⟨h1, h2⟩ (hd b hb)
      rw [List.mem_singleton] at hb
      subst hb
      exact hdiff)]
  rw [if_neg (not_not.mpr hexp), if_neg]
  rintro ⟨d', rest, h, h1, h2, -⟩
  rw [List.cons_append] at h
  injection h with h h'
  injection h with h
  subst h
  exact hd (.data d) (by simp) ⟨h1, by show d.kind.typeName = _; rw [h2]; rfl⟩

end Verif.Pipe
