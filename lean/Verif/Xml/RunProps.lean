import Verif.Xml.ReadProps
import Verif.Xml.RunSpec
import Verif.Regression.MainProps

/-!
# Recording and comparing again: C41, C44, C45
-/

set_option linter.unusedSimpArgs false

namespace Verif.Xml
open Verif.Measurement Verif.Measurement.Spec Verif.Regression Verif.Regression.Spec Verif.Path Spec

/-! ## C41: what is recorded -/

theorem written_emit (s : St) (t : Str) : written s.obj.os (s.emit t).world = written s.obj.os s.world ++ t := by
  rw [St.emit]
  cases h : s.obj.os with
  | none => simp [written]
  | some n => simp [written]

theorem recording (s : St) (h1 : s.obj.is = none) (h2 : s.obj.inFileName = []) : s.compareMode = false := by
  simp [St.compareMode, h1, h2]

theorem recorded_eq (c : Call) : c.recorded = .ok (recordedMeas c) := by
  rw [Call.recorded, recordedMeas]
  cases c.meas with
  | data d => rfl
  | file f => simp [tail_baseName]

/-- The measurement a call records has the standard attributes. -/
theorem recorded_standard (c : Call) : match recordedMeas c with
    | .data d => d.encoding = b!"none" ∧ d.compression = b!"none" ∧ d.escape = true ∧ d.data = none
    | .file f => f.escape = true := by
  cases c <;> simp [recordedMeas, Call.meas, DataM.setInteger, DataM.setBoolean, DataM.setContent]

theorem recorded_print (c : Call) : ∃ t, (recordedMeas c).print = .ok t ∧ t ++ b!"\n" = line (recordedMeas c) := by
  have h := recorded_standard c
  cases hm : recordedMeas c with
  | data d =>
    rw [hm] at h
    obtain ⟨h1, h2, h3, _⟩ := h
    simp only [Meas.print, Meas.printContent, Meas.escape, h3, if_true, C25_escape_exact, bind, Except.bind, pure, Except.pure]
    exact ⟨_, rfl, by simp [Meas.startTag, Meas.endTag, Meas.element, h1, h2, line, Meas.name, Meas.type, List.append_assoc]⟩
  | file f =>
    rw [hm] at h
    simp only at h
    simp only [Meas.print, Meas.printContent, Meas.escape, h, if_true, C25_escape_exact, bind, Except.bind, pure, Except.pure]
    exact ⟨_, rfl, by simp [Meas.startTag, Meas.endTag, Meas.element, line, Meas.name, Meas.type, List.append_assoc]⟩

/-- A call in record mode. -/
theorem runCall_record (env : Env) (s : St) (c : Call) (h1 : s.obj.is = none) (h2 : s.obj.inFileName = []) :
    runCall env s c = (s.emit (line (recordedMeas c)), .ok 0) := by
  obtain ⟨t, ht, he⟩ := recorded_print c
  rw [runCall, recording s h1 h2, if_neg (by simp), recorded_eq]
  simp only [ht, he]

/-- **C41.** In record mode, whatever the test does, what is written is one line for each measurement it makes, in order, each once,
however the test ends. -/
theorem C41_record_lines (env : Env) (p : Prog) : ∀ (s : St), s.obj.is = none → s.obj.inFileName = [] → Keeps s.obj.os p →
    written s.obj.os (runProg env p s).1.world =
      written s.obj.os s.world ++ (observed env p s).flatMap (fun o => line (recordedMeas o.call)) ∧
    (runProg env p s).1.obj.os = s.obj.os ∧ (runProg env p s).1.obj.is = none ∧ (runProg env p s).1.obj.inFileName = [] := by
  induction p with
  | ret v => intro s h1 h2 _; simp [runProg, observed, h1, h2]
  | fails f => intro s h1 h2 _; simp [runProg, observed, h1, h2]
  | call c k ih =>
    intro s h1 h2 hk
    have hc := runCall_record env s c h1 h2
    have ho := emit_obj s (line (recordedMeas c))
    have := ih 0 (s.emit (line (recordedMeas c))) (by rw [ho, h1]) (by rw [ho, h2]) (by rw [ho]; exact hk 0)
    rw [ho, written_emit] at this
    rw [runProg, observed]
    simp only [hc]
    rw [this.1]
    refine ⟨?_, this.2⟩
    simp [List.append_assoc]
  | act f k ih =>
    intro s h1 h2 hk
    have := ih { s with world := f s.world } h1 h2 hk.2
    rw [runProg, observed]
    simp only at this
    rw [hk.1] at this
    exact this
  | look k ih => intro s h1 h2 hk; exact ih s.world s h1 h2 (hk s.world)
  | ask k ih => intro s h1 h2 hk; exact ih s.settings s h1 h2 (hk s.settings)
  | setTolerance t k ih => intro s h1 h2 hk; exact ih { s with obj := { s.obj with tolerance := t } } h1 h2 hk
  | setExpected t k ih => intro s h1 h2 hk; exact ih { s with obj := { s.obj with expected := t } } h1 h2 hk
  | setImageTolerance t k ih => intro s h1 h2 hk; exact ih { s with obj := { s.obj with imageTol := t } } h1 h2 hk
  | setSearchPath ps k ih => intro s h1 h2 hk; exact ih { s with obj := { s.obj with searchPath := ps } } h1 h2 hk
  | prependSearchPath p k ih => intro s h1 h2 hk; exact ih { s with obj := { s.obj with searchPath := p :: s.obj.searchPath } } h1 h2 hk
  | setInFileName n k ih => intro s h1 h2 hk; exact ih { s with obj := { s.obj with inFileName := n } } h1 hk.1 hk.2
  | setOutFileName n k ih => intro s h1 h2 hk; exact ih { s with obj := { s.obj with outFileName := n } } h1 h2 hk

/-- What beginning a recording into a file does. -/
theorem begin_record (env : Env) (s : St) (h1 : s.obj.is = none) (h2 : s.obj.inFileName = []) (h3 : s.obj.outFileName ≠ [])
    (h4 : s.world.creatable (cstr s.obj.outFileName) = true) :
    ∃ w', s.world.openWrite s.obj.outFileName = some w' ∧
      beginMeasurement env s = (St.emit ⟨{ s.obj with os := some s.obj.outFileName }, w'⟩ (header s.world), .ok ()) ∧
      w'.bytes (cstr s.obj.outFileName) = [] := by
  have hw : ∃ w', s.world.openWrite s.obj.outFileName = some w' ∧ w'.bytes (cstr s.obj.outFileName) = [] ∧ header w' = header s.world := by
    rw [World.openWrite]
    simp only [if_pos h4]
    exact ⟨_, rfl, by simp, rfl⟩
  obtain ⟨w', hw, hb, hh⟩ := hw
  refine ⟨w', hw, ?_, hb⟩
  simp only [beginMeasurement, openOutput, h3, ne_eq, not_false_eq_true, if_true, hw, Res.andThen, openInput, h2, not_true_eq_false,
    if_false, startOrRead]
  rw [if_neg]
  · rw [hh]
  · simp [St.compareMode, h1]

/-- **C41.** `Main` with an output file and no baseline: when the test ends normally the file holds the header, one line for each
measurement in order, and the footer, whatever the test returned; when an exception ends the test, everything except the footer. -/
theorem C41_recorded_document (env : Env) (test : List Str → Prog) (fuel : Nat) (argv : List Str) (s : St) (o : Obj) (rest : List Str)
    (hparse : parseArguments s.world.fs fuel { s.obj with unmatched := s.obj.unmatched + 1 } argv = (o, .ok rest))
    (h1 : o.is = none) (h2 : o.inFileName = []) (h3 : o.outFileName ≠ []) (h4 : s.world.creatable (cstr o.outFileName) = true)
    (hk : Keeps (some o.outFileName) (test rest)) :
    ∃ s1, beginMeasurement env ⟨o, s.world⟩ = (s1, .ok ()) ∧
      (∀ v, (runProg env (test rest) s1).2 = .ok v →
        (main env test fuel argv s).1.world.bytes (cstr o.outFileName) =
          header s.world ++ (observed env (test rest) s1).flatMap (fun x => line (recordedMeas x.call)) ++ footer) ∧
      (∀ m, (runProg env (test rest) s1).2 = .error (.thrown m) →
        (main env test fuel argv s).1.world.bytes (cstr o.outFileName) =
          header s.world ++ (observed env (test rest) s1).flatMap (fun x => line (recordedMeas x.call))) := by
  obtain ⟨w', hw, hb, hbytes⟩ := begin_record env ⟨o, s.world⟩ h1 h2 h3 h4
  simp only at hw hb hbytes
  refine ⟨_, hb, ?_⟩
  generalize hs1 : St.emit ⟨{ o with os := some o.outFileName }, w'⟩ (header s.world) = s1 at *
  have ho1 : s1.obj = { o with os := some o.outFileName } := by rw [← hs1, emit_obj]
  have hb1 : written (some o.outFileName) s1.world = header s.world := by
    have := written_emit ⟨{ o with os := some o.outFileName }, w'⟩ (header s.world)
    rw [hs1] at this
    simpa [written, hbytes] using this
  obtain ⟨c1, c2, c3, c4⟩ := C41_record_lines env (test rest) s1 (by rw [ho1]; exact h1) (by rw [ho1]; exact h2) (by rw [ho1]; exact hk)
  have hos : s1.obj.os = some o.outFileName := by rw [ho1]
  rw [hos] at c1 c2
  rw [hb1] at c1
  rcases hr : runProg env (test rest) s1 with ⟨s2, r⟩
  rw [hr] at c1 c2 c3 c4
  simp only at c1 c2 c3 c4
  constructor
  · rintro v hv
    simp only at hv
    subst hv
    have hf := written_emit s2 footer
    rw [c2, c1] at hf
    simp only [main, tryBlock, hparse, hb, hr, endMeasurement, recording s2 c3 c4, Bool.false_eq_true, if_false]
    exact hf
  · rintro m hv
    simp only at hv
    subst hv
    simp only [main, tryBlock, hparse, hb, hr]
    exact c1

/-! ## C44: recording and comparing again -/

theorem observed_straight_record (env : Env) (v : Int) (cs : List Call) : ∀ (s : St), s.obj.is = none → s.obj.inFileName = [] →
    (observed env (straight v cs) s).map (·.call) = cs ∧ (runProg env (straight v cs) s).2 = .ok v ∧
    (runProg env (straight v cs) s).1.world.fs = s.world.fs ∧ (runProg env (straight v cs) s).1.obj = s.obj ∧
    (s.obj.os ≠ none → (runProg env (straight v cs) s).1.world.cout = s.world.cout) := by
  induction cs with
  | nil => intro s _ _; simp [straight, observed, runProg]
  | cons c cs ih =>
    intro s h1 h2
    have hc := runCall_record env s c h1 h2
    have ho := emit_obj s (line (recordedMeas c))
    obtain ⟨a1, a2, a3, a4, a5⟩ := ih (s.emit (line (recordedMeas c))) (by rw [ho, h1]) (by rw [ho, h2])
    have hfs : (s.emit (line (recordedMeas c))).world.fs = s.world.fs := by rw [St.emit]; split <;> rfl
    have hcout : s.obj.os ≠ none → (s.emit (line (recordedMeas c))).world.cout = s.world.cout := by
      rw [St.emit]; split
      · next h => intro h'; exact absurd h h'
      · intro _; rfl
    rw [straight, observed, runProg]
    simp only [hc]
    refine ⟨by simp [a1], a2, by rw [a3, hfs], by rw [a4, ho], fun h => by rw [a5 (by rwa [ho]), hcout h]⟩

theorem keeps_straight (os : Option Str) (v : Int) (cs : List Call) : Keeps os (straight v cs) := by
  induction cs with
  | nil => trivial
  | cons c cs ih => exact fun _ => ih

theorem recorded_name (c : Call) : (recordedMeas c).name = c.meas.name ∧ (recordedMeas c).type = c.meas.type := by
  rw [recordedMeas]
  cases c.meas <;> exact ⟨rfl, rfl⟩

theorem recorded_plainly (c : Call) : Plainly (recordedMeas c) := by
  have h := recorded_standard c
  cases hm : recordedMeas c with
  | data d => rw [hm] at h; exact ⟨h.2.2.2, by rw [h.1]; decide⟩
  | file f => trivial

/-- A run of calls that all agree with the baseline changes nothing but the baseline, which is consumed. -/
theorem run_agreeing (env : Env) (v : Int) : ∀ (cs : List Call) (bs : List Meas) (s : St) (bytes : Str),
    s.obj.is = some bytes → s.obj.input = bs → (∀ b ∈ bs, Plainly b) → (∀ c ∈ cs, c.meas.name ≠ []) →
    (∀ c ∈ cs, c.meas.type ≠ b!"image/itk") →
    List.Forall₂ (fun c b => Agree env b (s.obs c)) cs bs →
    runProg env (straight v cs) s = (⟨{ s.obj with input := [] }, s.world⟩, .ok v) := by
  intro cs
  induction cs with
  | nil =>
    intro bs s bytes _ hin _ _ _ h
    cases h
    rw [straight, runProg]
    rcases s with ⟨o, w⟩
    simp only at hin
    rw [← hin]
  | cons c cs ih =>
    intro bs s bytes his hin hp hn hi h
    cases h with
    | @cons _ b _ bs hag hrest =>
    have hname := hn c (by simp)
    have hstep : runCall env s c = (⟨{ s.obj with input := bs }, s.world⟩, .ok 1) := by
      rcases hr : runCall env s c with ⟨s1, r⟩
      have hcs := call_step env s c bytes his (by rw [hin]; exact hp) hname
      rw [hr] at hcs
      rcases hcs with ⟨hna, _⟩ | ⟨b', rest, hi', _, hobj, hc⟩ | ⟨hna, _⟩
      · exact absurd hag (hna b bs hin)
      · rw [hin] at hi'
        cases hi'
        simp only at hobj hc
        subst hc
        have hw := (C60_comparison_output env s c bytes his (by rw [hin]; exact hp) hname (Or.inr (hi c (by simp))) 1
          (by rw [hr])).2.1 b bs hin hag
        rw [hr] at hw
        simp only at hw
        rcases s1 with ⟨o1, w1⟩
        simp only at hobj hw
        rw [hobj, hw]
      · exact absurd hag (hna b bs hin)
    rw [straight, runProg, hstep]
    simp only
    have := ih bs ⟨{ s.obj with input := bs }, s.world⟩ bytes his rfl (fun x hx => hp x (by simp [hx])) (fun x hx => hn x (by simp [hx]))
      (fun x hx => hi x (by simp [hx])) hrest
    rw [this]

/-- **C44.** A text or a number agrees with its own record, with every tolerance - except the least integer when compared with
tolerance. -/
theorem C44_agrees_with_itself (env : Env) (o : Obs) (d : DataM) (hd : o.call.meas = .data d)
    (hmin : ∀ v n, o.call = .integer v n true → longToInt v ≠ intMin) :
    Agree env (recordedMeas o.call) o := by
  obtain ⟨h1, h2⟩ := recorded_name o.call
  refine ⟨h1, h2, ?_⟩
  rw [recordedMeas, hd, SameValue.eq_def]
  simp only
  split
  · next k hk =>
    split
    · next ht =>
      apply C29_reflexive
      intro hki
      subst hki
      rcases ho : o.call with _ | _ | _ | ⟨v, n, t⟩ | _ | _ | _ | _ | _ | _ <;> rw [ho] at hd ht hmin <;>
        simp only [Call.meas, Meas.data.injEq, reduceCtorEq] at hd <;> subst hd <;>
        simp only [reduceCtorEq, Measurement.Kind.num.injEq, DataM.setInteger, DataM.setBoolean, DataM.setContent] at hk
      have htt : t = true := ht.1
      subst htt
      have hne := hmin v n rfl
      have hr : intMin ≤ longToInt v := by
        simp only [longToInt, intMin]; omega
      rw [(C28_long_truncated _ v 0).1]
      omega
    · trivial
  · trivial

/-- The world after the recording: the file is there and can be read. -/
def Recorded (f : Str) (w w1 : World) (bytes : Str) : Prop :=
  isFile w1.fs f = true ∧ isReadable w1.fs f = true ∧ w1.openRead f = some bytes ∧ w1.cout = w.cout

/-- A recording run into a file that can be written: it returns the test's success and leaves a document that reads back. -/
theorem record_run_at (tol : ℚ) (sp more : List Str) (hstop : Stops more) (X : Expat) (env : Env) (v : Int) (cs : List Call) (fuel : Nat) (hfuel : 1 < fuel) (prog f : Str) (w : World)
    (hf : f ≠ []) (hcreate : w.creatable (cstr f) = true)
    (hnew : w.fs.stat (cstr f) = none ∨ (w.fs.canRead (cstr f) = true ∧ w.fs.canWrite (cstr f) = true)) :
    Recorded f w (main (withXML X env) (fun _ => straight v cs) fuel (prog :: b!"-O" :: f :: more) ⟨{ tolerance := tol, searchPath := sp }, w⟩).1.world
      (header w ++ (cs.map fun c => line (recordedMeas c)).flatten ++ footer) ∧
      (main (withXML X env) (fun _ => straight v cs) fuel (prog :: b!"-O" :: f :: more) ⟨{ tolerance := tol, searchPath := sp }, w⟩).2 = .ok v := by
  have hnw : ¬ (isFile w.fs f = true ∧ isWritable w.fs f = false) := by
    rintro ⟨h1, h2⟩
    rcases hnew with h | ⟨_, h⟩
    · simp [isFile, h] at h1
    · simp [isWritable, isDirectory, h] at h2
      simp [isFile, h2.1] at h1
  have hparse : parseArguments w.fs fuel { tolerance := tol, searchPath := sp, unmatched := 0 + 1 } (prog :: b!"-O" :: f :: more) = ({ tolerance := tol, searchPath := sp, unmatched := 0 + 1, outFileName := f }, .ok (prog :: more)) := by
    have := C35_options_removed w.fs fuel { tolerance := tol, searchPath := sp, unmatched := 0 + 1 } prog [(b!"-O", f)] more (by simp [IsOption])
      (by simp [Refused]) hstop (by simpa using hfuel)
    rw [flat] at this
    simp only [flat, List.cons_append, List.nil_append] at this
    rw [this]
    have e1 : lastValue b!"-R" [(b!"-O", f)] = none := by simp [lastValue]
    have e2 : lastValue b!"-I" [(b!"-O", f)] = none := by simp [lastValue]
    have e3 : lastValue b!"-O" [(b!"-O", f)] = some f := by simp [lastValue]
    have e4 : values b!"-P" [(b!"-O", f)] = [] := by simp [values]
    rw [e1, e2, e3, e4]
    simp [hnw]
  obtain ⟨s1, hbegin, hdoc, _⟩ := C41_recorded_document (withXML X env) (fun _ => straight v cs) fuel (prog :: b!"-O" :: f :: more) ⟨{ tolerance := tol, searchPath := sp }, w⟩ _ _ hparse
    rfl rfl hf hcreate (keeps_straight _ v cs)
  have hs1 : s1.obj.is = none ∧ s1.obj.inFileName = [] ∧ s1.obj.os = some f ∧ s1.world.cout = w.cout ∧ s1.obj.expected = 0 ∧
      s1.world.fs.stat (cstr f) = some .regular ∧ s1.world.fs.canRead (cstr f) = true := by
    obtain ⟨w', hwr, hb, _⟩ := begin_record (withXML X env) ⟨{ tolerance := tol, searchPath := sp, unmatched := 0 + 1, outFileName := f }, w⟩ rfl rfl hf hcreate
    rw [hb] at hbegin
    cases hbegin
    rw [emit_obj]
    simp only [World.openWrite, if_pos hcreate, Option.some.injEq] at hwr
    subst hwr
    simp only [St.emit, if_true, and_true, true_and]
    rcases hnew with h | h
    · simp [h]
    · simp [h.1]
  obtain ⟨q1, q2, q3, q4, q5, q6, q7⟩ := hs1
  obtain ⟨a1, a2, a3, a4, a5⟩ := observed_straight_record (withXML X env) v cs s1 q1 q2
  have hbytes := hdoc v a2
  simp only at hbytes
  rcases hr : runProg (withXML X env) (straight v cs) s1 with ⟨s2, r⟩
  rw [hr] at a2 a3 a4 a5
  simp only at a2 a3 a4 a5
  subst a2
  have hmain : main (withXML X env) (fun _ => straight v cs) fuel (prog :: b!"-O" :: f :: more) ⟨{ tolerance := tol, searchPath := sp }, w⟩ =
      (⟨{ s1.obj with os := none, is := none, unmatched := s1.obj.unmatched - 1 }, (s2.emit footer).world⟩, .ok v) := by
    have hrec : s2.compareMode = false := recording s2 (by rw [a4, q1]) (by rw [a4, q2])
    simp only [main, tryBlock, hparse, hbegin, hr, endMeasurement, hrec, Bool.false_eq_true, if_false, emit_obj, a4, mainValue]
    by_cases hv : v = 0
    · simp [hv, q5, St.compareMode, q2]
    · simp [hv, q5]
  have hfs : (s2.emit footer).world.fs = s1.world.fs := by rw [← a3, St.emit]; split <;> rfl
  have hcout : (s2.emit footer).world.cout = w.cout := by
    rw [St.emit]
    split
    · next h => rw [a4, q3] at h; cases h
    · rw [← q4]; exact a5 (by rw [q3]; simp)
  rw [hmain] at hbytes ⊢
  simp only at hbytes ⊢
  have hread : isReadable (s2.emit footer).world.fs f = true := by simp [isReadable, isDirectory, hfs, q6, q7]
  have hl : (observed (withXML X env) (straight v cs) s1).flatMap (fun x => line (recordedMeas x.call)) =
      (cs.map fun c => line (recordedMeas c)).flatten := by
    conv_rhs => rw [← a1]
    rw [List.map_map, List.flatMap_def]
    rfl
  rw [hl] at hbytes
  refine ⟨⟨by simp [isFile, hfs, q6], hread, by rw [World.openRead, if_pos (by simp [hfs, q6, q7]), hbytes], hcout⟩, trivial⟩

theorem record_run' (tol : ℚ) (X : Expat) (env : Env) (v : Int) (cs : List Call) (fuel : Nat) (hfuel : 1 < fuel) (prog f : Str) (w : World)
    (hf : f ≠ []) (hcreate : w.creatable (cstr f) = true)
    (hnew : w.fs.stat (cstr f) = none ∨ (w.fs.canRead (cstr f) = true ∧ w.fs.canWrite (cstr f) = true)) :
    Recorded f w (main (withXML X env) (fun _ => straight v cs) fuel [prog, b!"-O", f] ⟨{ tolerance := tol }, w⟩).1.world
      (header w ++ (cs.map fun c => line (recordedMeas c)).flatten ++ footer) ∧
      (main (withXML X env) (fun _ => straight v cs) fuel [prog, b!"-O", f] ⟨{ tolerance := tol }, w⟩).2 = .ok v :=
  record_run_at tol [] [] (by simp [Stops]) X env v cs fuel hfuel prog f w hf hcreate hnew

theorem record_run (X : Expat) (env : Env) (v : Int) (cs : List Call) (fuel : Nat) (hfuel : 1 < fuel) (prog f : Str) (w : World)
    (hf : f ≠ []) (hcreate : w.creatable (cstr f) = true)
    (hnew : w.fs.stat (cstr f) = none ∨ (w.fs.canRead (cstr f) = true ∧ w.fs.canWrite (cstr f) = true)) :
    Recorded f w (main (withXML X env) (fun _ => straight v cs) fuel [prog, b!"-O", f] ⟨{}, w⟩).1.world
      (header w ++ (cs.map fun c => line (recordedMeas c)).flatten ++ footer) ∧
      (main (withXML X env) (fun _ => straight v cs) fuel [prog, b!"-O", f] ⟨{}, w⟩).2 = .ok v :=
  record_run' _ X env v cs fuel hfuel prog f w hf hcreate hnew

/-- Reading a recording of clean measurements. -/
theorem read_recording (X : Expat) (hX : Conforms X) (cs : List Call) (w : World) (hw : Comment (commentText w))
    (hclean : ∀ c ∈ cs, Clean (recordedMeas c)) :
    readXML X (header w ++ (cs.map fun c => line (recordedMeas c)).flatten ++ footer) = .ok (cs.map recordedMeas) := by
  obtain ⟨texts, ht1, ht2⟩ : ∃ texts : List Str, List.Forall₂ (fun m t => m.print = .ok t) (cs.map recordedMeas) texts ∧
      texts.flatMap (· ++ b!"\n") = (cs.map fun c => line (recordedMeas c)).flatten := by
    clear * -
    induction cs with
    | nil => exact ⟨[], .nil, rfl⟩
    | cons c cs ih =>
      obtain ⟨t, h1, h2⟩ := recorded_print c
      obtain ⟨ts, h3, h4⟩ := ih
      exact ⟨t :: ts, .cons h1 h3, by rw [List.flatMap_cons, h4, h2]; simp⟩
  rw [← ht2]
  refine C26_reads_back X hX w hw _ texts ht1 ?_
  intro m hm
  obtain ⟨c, hc, rfl⟩ := List.mem_map.mp hm
  exact hclean c hc

/-- Comparing: the command line, and the beginning. -/
theorem compare_begin_at (tol : ℚ) (sp more : List Str) (hstop : Stops more) (env : Env) (fuel : Nat) (hfuel : 1 < fuel) (prog f : Str) (w : World) (bytes : Str) (hf : f ≠ [])
    (hsp : (if searchPathList w.fs f sp = [] then f else searchPathList w.fs f sp) = f)
    (h1 : isFile w.fs f = true) (h2 : isReadable w.fs f = true) (h3 : w.openRead f = some bytes) (ms : List Meas)
    (hread : env.readXML bytes = .ok ms) :
    parseArguments w.fs fuel { tolerance := tol, searchPath := sp, unmatched := 0 + 1 } (prog :: b!"-I" :: f :: more) = ({ tolerance := tol, searchPath := sp, unmatched := 0 + 1, inFileName := f }, .ok (prog :: more)) ∧
    beginMeasurement env ⟨{ tolerance := tol, searchPath := sp, unmatched := 0 + 1, inFileName := f }, w⟩ =
      (⟨{ tolerance := tol, searchPath := sp, unmatched := 0 + 1, inFileName := f, is := some bytes, input := ms }, w⟩, .ok ()) ∧
    baselinePresent { tolerance := tol, searchPath := sp, unmatched := 0 + 1, inFileName := f } w.fs := by
  refine ⟨?_, ?_, hf, ?_⟩
  · have := C35_options_removed w.fs fuel { tolerance := tol, searchPath := sp, unmatched := 0 + 1 } prog [(b!"-I", f)] more (by simp [IsOption])
      (by simp [Refused, h1, h2]) hstop (by simpa using hfuel)
    rw [flat] at this
    simp only [flat, List.cons_append, List.nil_append] at this
    rw [this]
    have e1 : lastValue b!"-R" [(b!"-I", f)] = none := by simp [lastValue]
    have e2 : lastValue b!"-I" [(b!"-I", f)] = some f := by simp [lastValue]
    have e3 : lastValue b!"-O" [(b!"-I", f)] = none := by simp [lastValue]
    have e4 : values b!"-P" [(b!"-I", f)] = [] := by simp [values]
    rw [e1, e2, e3, e4]
    simp
  · have hor : searchPathList w.fs f sp = [] ∨ searchPathList w.fs f sp = f := by
      by_cases he : searchPathList w.fs f sp = []
      · exact .inl he
      · rw [if_neg he] at hsp; exact .inr hsp
    rcases hor with he | he <;>
      simp [beginMeasurement, openOutput, Res.andThen, openInput, hf, Obj.searched, he, h3, startOrRead, St.compareMode, hread]
  · simp [hsp, h1, h2]

theorem compare_begin' (tol : ℚ) (env : Env) (fuel : Nat) (hfuel : 1 < fuel) (prog f : Str) (w : World) (bytes : Str) (hf : f ≠ [])
    (h1 : isFile w.fs f = true) (h2 : isReadable w.fs f = true) (h3 : w.openRead f = some bytes) (ms : List Meas)
    (hread : env.readXML bytes = .ok ms) :
    parseArguments w.fs fuel { tolerance := tol, unmatched := 0 + 1 } [prog, b!"-I", f] = ({ tolerance := tol, unmatched := 0 + 1, inFileName := f }, .ok [prog]) ∧
    beginMeasurement env ⟨{ tolerance := tol, unmatched := 0 + 1, inFileName := f }, w⟩ =
      (⟨{ tolerance := tol, unmatched := 0 + 1, inFileName := f, is := some bytes, input := ms }, w⟩, .ok ()) ∧
    baselinePresent { tolerance := tol, unmatched := 0 + 1, inFileName := f } w.fs :=
  compare_begin_at tol [] [] (by simp [Stops]) env fuel hfuel prog f w bytes hf rfl h1 h2 h3 ms hread

theorem compare_begin (env : Env) (fuel : Nat) (hfuel : 1 < fuel) (prog f : Str) (w : World) (bytes : Str) (hf : f ≠ [])
    (h1 : isFile w.fs f = true) (h2 : isReadable w.fs f = true) (h3 : w.openRead f = some bytes) (ms : List Meas)
    (hread : env.readXML bytes = .ok ms) :
    parseArguments w.fs fuel { unmatched := 0 + 1 } [prog, b!"-I", f] = ({ unmatched := 0 + 1, inFileName := f }, .ok [prog]) ∧
    beginMeasurement env ⟨{ unmatched := 0 + 1, inFileName := f }, w⟩ =
      (⟨{ unmatched := 0 + 1, inFileName := f, is := some bytes, input := ms }, w⟩, .ok ()) ∧
    baselinePresent { unmatched := 0 + 1, inFileName := f } w.fs := compare_begin' _ env fuel hfuel prog f w bytes hf h1 h2 h3 ms hread

/-- **C44.** A run recorded into a file and repeated with that file as baseline passes: the second run returns 0, writes nothing and
changes no file, when the measurements have clean names and printable content and agree with their own records (as texts and numbers do, by
`C44_agrees_with_itself`, and files whose recorded names lead to the same bytes). -/
theorem C44_record_then_compare (X : Expat) (hX : Conforms X) (env : Env) (cs : List Call) (fuel : Nat) (hfuel : 1 < fuel)
    (prog f : Str) (w : World) (hw : Comment (commentText w)) (hf : f ≠ []) (hcreate : w.creatable (cstr f) = true)
    (hnew : w.fs.stat (cstr f) = none ∨ (w.fs.canRead (cstr f) = true ∧ w.fs.canWrite (cstr f) = true))
    (hclean : ∀ c ∈ cs, Clean (recordedMeas c)) (hname : ∀ c ∈ cs, c.meas.name ≠ []) (himg : ∀ c ∈ cs, c.meas.type ≠ b!"image/itk")
    (w1 : World) (hw1 : (main (withXML X env) (fun _ => straight 0 cs) fuel [prog, b!"-O", f] ⟨{}, w⟩).1.world = w1)
    (hself : ∀ c ∈ cs, Agree (withXML X env) (recordedMeas c) (St.obs ⟨{}, w1⟩ c)) :
    (main (withXML X env) (fun _ => straight 0 cs) fuel [prog, b!"-O", f] ⟨{}, w⟩).2 = .ok 0 ∧
    (main (withXML X env) (fun _ => straight 0 cs) fuel [prog, b!"-I", f] ⟨{}, w1⟩).2 = .ok 0 ∧
    (main (withXML X env) (fun _ => straight 0 cs) fuel [prog, b!"-I", f] ⟨{}, w1⟩).1.world = w1 := by
  obtain ⟨⟨r1, r2, r3, r4⟩, hv⟩ := record_run X env 0 cs fuel hfuel prog f w hf hcreate hnew
  have hread := read_recording X hX cs w hw hclean
  rw [hw1] at r1 r2 r3 r4
  obtain ⟨bytes, hbytes⟩ : ∃ b, b = header w ++ (cs.map fun c => line (recordedMeas c)).flatten ++ footer := ⟨_, rfl⟩
  rw [← hbytes] at r3 hread
  obtain ⟨hp, hb, hpres⟩ := compare_begin (withXML X env) fuel hfuel prog f w1 bytes hf r1 r2 r3 (cs.map recordedMeas) hread
  have hrun := run_agreeing (withXML X env) 0 cs (cs.map recordedMeas)
    ⟨{ unmatched := 0 + 1, inFileName := f, is := some bytes, input := cs.map recordedMeas }, w1⟩ bytes rfl rfl
    (by intro b hb; obtain ⟨c, _, rfl⟩ := List.mem_map.mp hb; exact recorded_plainly c) hname himg (by
      clear hp hb hread hw1 hv hclean hname himg hbytes
      induction cs with
      | nil => exact .nil
      | cons c cs ih => exact .cons (hself c (by simp)) (ih fun x hx => hself x (by simp [hx])))
  refine ⟨hv, ?_, ?_⟩
  · simp only [main, tryBlock, hp, hb, hrun, mainValue, endMeasurement]
    simp [St.compareMode]
  · simp only [main, tryBlock, hp, hb, hrun, mainValue, endMeasurement]
    simp [St.compareMode]

theorem recorded_clean (c : Call) (d : DataM) (hd : c.meas = .data d) (h1 : ∀ x ∈ c.meas.name, AttrChar x)
    (h2 : ∀ x ∈ c.meas.content, Printable x) : Clean (recordedMeas c) := by
  have hs := recorded_standard c
  have hr : recordedMeas c = .data d := by rw [recordedMeas, hd]
  rw [hd] at h1 h2
  rw [hr] at hs ⊢
  obtain ⟨e1, e2, e3, e4⟩ := hs
  exact ⟨h1, by rw [e1]; decide, by rw [e2]; decide, h2, e3, e4⟩

/-- **C44.** The same for texts and numbers, without a condition about agreement: every test that measures texts, numbers and truth values
passes when it is repeated against its own record. -/
theorem C44_texts_and_numbers (X : Expat) (hX : Conforms X) (env : Env) (cs : List Call) (fuel : Nat) (hfuel : 1 < fuel)
    (prog f : Str) (w : World) (hw : Comment (commentText w)) (hf : f ≠ []) (hcreate : w.creatable (cstr f) = true)
    (hnew : w.fs.stat (cstr f) = none ∨ (w.fs.canRead (cstr f) = true ∧ w.fs.canWrite (cstr f) = true))
    (hdata : ∀ c ∈ cs, ∃ d, c.meas = .data d) (hname : ∀ c ∈ cs, c.meas.name ≠ [] ∧ ∀ x ∈ c.meas.name, AttrChar x)
    (hcontent : ∀ c ∈ cs, ∀ x ∈ c.meas.content, Printable x) (hmin : ∀ v n, .integer v n true ∈ cs → longToInt v ≠ intMin)
    (w1 : World) (hw1 : (main (withXML X env) (fun _ => straight 0 cs) fuel [prog, b!"-O", f] ⟨{}, w⟩).1.world = w1) :
    (main (withXML X env) (fun _ => straight 0 cs) fuel [prog, b!"-O", f] ⟨{}, w⟩).2 = .ok 0 ∧
    (main (withXML X env) (fun _ => straight 0 cs) fuel [prog, b!"-I", f] ⟨{}, w1⟩).2 = .ok 0 ∧
    (main (withXML X env) (fun _ => straight 0 cs) fuel [prog, b!"-I", f] ⟨{}, w1⟩).1.world = w1 := by
  refine C44_record_then_compare X hX env cs fuel hfuel prog f w hw hf hcreate hnew ?_ (fun c hc => (hname c hc).1) ?_ w1 hw1 ?_
  · intro c hc
    obtain ⟨d, hd⟩ := hdata c hc
    exact recorded_clean c d hd (hname c hc).2 (hcontent c hc)
  · intro c hc
    obtain ⟨d, hd⟩ := hdata c hc
    rw [hd]
    show d.kind.typeName ≠ _
    rcases d.kind with _ | _ | (_ | _ | _ | _) <;> decide
  · intro c hc
    obtain ⟨d, hd⟩ := hdata c hc
    refine C44_agrees_with_itself _ (St.obs ⟨{}, w1⟩ c) d hd ?_
    intro v n hv
    exact hmin v n (by rw [← show c = .integer v n true from hv]; exact hc)

/-- The hypotheses of C44 are met: by a file that does not exist yet, a string with markup and a number with tolerance. -/
example : ∃ w1, (main (withXML reference (smallEnv [])) (fun _ => straight 0 [.textString b!"a<b" b!"s", .integer (-5) b!"i" true]) 2
    [b!"prog", b!"-I", b!"f"] ⟨{}, w1⟩).2 = .ok 0 :=
  ⟨_, (C44_texts_and_numbers reference reference_conforms (smallEnv []) [.textString b!"a<b" b!"s", .integer (-5) b!"i" true] 2 (by decide)
    b!"prog" b!"f" plainWorld plain_comment (by decide) rfl (Or.inl rfl)
    (by simp [Call.meas]) (by simp only [List.mem_cons, List.not_mem_nil, or_false, forall_eq_or_imp, forall_eq]; decide)
    (by
      have h5 : intText (longToInt (-5)) = b!"-5" := by decide +kernel
      simp only [List.mem_cons, List.not_mem_nil, or_false, forall_eq_or_imp, forall_eq]
      refine ⟨by decide, ?_⟩
      simp only [Call.meas, Meas.content, DataM.setInteger, DataM.setContent, h5]
      decide)
    (by
      intro v n h
      simp only [List.mem_cons, List.not_mem_nil, or_false, reduceCtorEq, false_or, Call.integer.injEq] at h
      rw [h.1]; decide)
    _ rfl).2.1⟩

/-! ## C45: changes are detected -/

theorem difference_ok (env : Env) (b : Meas) (c : Call)
    (hdiff : ∀ content name, c = .textPlain content name → ∃ t', env.diff b.content content = .ok t') :
    ∃ x, difference env.diff b c.meas = .ok x := by
  rw [difference_eq]
  by_cases hc : ∃ content name, c = .textPlain content name
  · obtain ⟨content, name, rfl⟩ := hc
    obtain ⟨t', ht⟩ := hdiff content name rfl
    simp only [Call.meas, differencePlain]
    rw [show (Meas.data { kind := .plain, name := name, content := content }).content = content from rfl, ht]
    simp only
    obtain ⟨p, hp⟩ := print_ok (Meas.data { kind := .plain, name := b!"Difference " ++ (Meas.data { kind := .plain, name := name, content := content }).name, content := t' })
    rw [hp]
    exact ⟨_, rfl⟩
  · have : ∀ n c' e z s d, c.meas ≠ .data ⟨.plain, n, c', e, z, s, d⟩ := by
      intro n c' e z s d h
      cases c <;> simp only [Call.meas, DataM.setInteger, DataM.setBoolean, DataM.setContent, Meas.data.injEq, DataM.mk.injEq, reduceCtorEq, false_and] at h
      exact hc ⟨_, _, rfl⟩
    split
    · next h => exact absurd h (this _ _ _ _ _ _)
    simp only [differenceGeneral]
    obtain ⟨p, hp⟩ := print_ok (c.meas.setName (b!"Test " ++ c.meas.name))
    obtain ⟨q, hq⟩ := print_ok (b.setName (b!"Baseline " ++ b.name))
    rw [hp, hq]
    exact ⟨_, rfl⟩

theorem emit_fs (s : St) (t : Str) : (s.emit t).world.fs = s.world.fs := by rw [St.emit]; split <;> rfl

/-- The comparison of two plain data measurements leaves them as they are. -/
theorem visit_same (v : CompareVisitor) (env : NumEnv) (files : Files) (b t : DataM) (hb : Plainly (.data b)) (ht : Plainly (.data t)) :
    (v.visit env files (.data b) (.data t)).1 = .data b ∧ (v.visit env files (.data b) (.data t)).2.1 = .data t := by
  have hbh := holds_of_plainly hb
  have hth := holds_of_plainly ht
  rw [visit_data]
  cases hk : t.kind with
  | plain => simp only [compareGeneral]; rw [C33_data_equal _ b t _ _ hbh hth]; exact ⟨rfl, rfl⟩
  | string => simp only [compareGeneral]; rw [C33_data_equal _ b t _ _ hbh hth]; exact ⟨rfl, rfl⟩
  | num k =>
    simp only
    by_cases hj : ∃ j, b.kind = .num j
    · obtain ⟨j, hj⟩ := hj
      rw [compareNumeric_eq _ _ _ b t j k hj hk]
      split
      · exact ⟨rfl, rfl⟩
      · rw [C33_data_equal _ b t _ _ hbh hth]; exact ⟨rfl, rfl⟩
    · rw [compareNumeric_other _ _ _ b t (fun j h => hj ⟨j, h⟩)]
      exact ⟨rfl, rfl⟩

/-- The comparison with a tolerance of the measurement of a call with a baseline measurement of the same kind is defined. -/
def Comparable (env : Env) (tol : ℚ) (b : Meas) (c : Call) : Prop :=
  ∀ e d k, b = .data e → c.meas = .data d → e.kind = .num k → d.kind = .num k → c.tolerant = true → ¬ IsUB (isEqualTolerant env.num k e.content k d.content tol)

/-- A call that measures text or a number ends normally in compare mode. -/
theorem data_call (env : Env) (s : St) (c : Call) (hc : ∃ d, c.meas = .data d) (bytes : Str)
    (his : s.obj.is = some bytes) (hb : ∀ b ∈ s.obj.input, Plainly b ∧ ∃ d, b = .data d) (hn : c.meas.name ≠ [])
    (hsafe : ∀ b ∈ s.obj.input, Comparable env s.obj.tolerance b c)
    (hdiff : ∀ b ∈ s.obj.input, ∀ content name, c = .textPlain content name → b.name = name → b.type = b!"text/plain" → ∃ t, env.diff b.content content = .ok t) :
    ∃ s' v, runCall env s c = (s', .ok v) ∧ s'.world.fs = s.world.fs ∧ s'.obj.expected = s.obj.expected ∧ s'.obj.is = some bytes ∧
      s'.obj.tolerance = s.obj.tolerance ∧ s'.obj.input = s.obj.input.drop 1 := by
  obtain ⟨d, hd⟩ := hc
  have hdp := call_plainly c d hd
  rw [runCall, compareMode_is his, if_pos rfl, compareMeasurement]
  have hun : ∀ s : St, ∃ s', unmatchedMeasurement s c.meas = (s', .ok ()) ∧
      s'.obj = { s.obj with unmatched := s.obj.unmatched + 1 } ∧ s'.world.fs = s.world.fs := by
    intro s
    obtain ⟨t, ht⟩ := print_ok (c.meas.setName (b!"Unmatched " ++ c.meas.name))
    simp only [unmatchedMeasurement, ht]
    exact ⟨_, rfl, by rw [emit_obj], by rw [emit_fs]⟩
  cases hi : s.obj.input with
  | nil =>
    obtain ⟨s', h1, h2, h3⟩ := hun s
    simp only [h1, Res.andThen]
    exact ⟨_, _, rfl, h3, by rw [h2], by rw [h2]; exact his, by rw [h2], by rw [h2]; simpa using hi⟩
  | cons b rest =>
    simp only
    by_cases hnt : b.name = c.meas.name ∧ b.type = c.meas.type
    · rw [if_pos hnt]
      obtain ⟨hbp, e, rfl⟩ := hb b (by simp [hi])
      have hl : locateBaseline { s with obj := { s.obj with input := rest } } (.data e) c.meas = .ok (.data e) := by rw [hd]; rfl
      have himg : imagePair env (.data e) c.meas = none := by
        rw [hd]; simp only [imagePair]
        cases env.image <;> rfl
      simp only [hl]
      have hcv : ∃ r, compareVisit env { s with obj := { s.obj with input := rest } } c.tolerant (.data e) c.meas =
            ({ s with obj := { s.obj with input := rest } }, .data e, c.meas, .ok r) := by
        rcases visit_agree env { s with obj := { s.obj with input := rest } } (.data e) c hbp hn hnt.1 hnt.2 _ hl himg with
          ⟨_, h, hu⟩ | ⟨r, t', b'', hv, _⟩
        · exfalso
          have hk : ∃ k, d.kind = .num k := by
            by_contra hno
            have := call_kind c (fun d' k hd' hk' => by rw [hd] at hd'; cases hd'; exact hno ⟨k, hk'⟩)
            rw [this] at h; cases h
          obtain ⟨k, hk⟩ := hk
          have hke : e.kind = .num k := by
            have := hnt.2
            rw [hd] at this
            rw [typeName_injective e.kind d.kind this, hk]
          rw [hd, visit_data, hk] at hu
          simp only at hu
          rw [compareNumeric_eq _ _ _ e d k k hke hk] at hu
          by_cases h0 : (visitorFor { s with obj := { s.obj with input := rest } } c.tolerant).getTolerance ≠ 0
          · rw [if_pos h0, visitorFor_tolerance, h, if_pos rfl] at hu
            exact hsafe _ (by simp [hi]) e d k rfl hd hke hk h hu
          · rw [if_neg h0, C33_data_equal _ e d _ _ (holds_of_plainly hbp) (holds_of_plainly hdp)] at hu
            obtain ⟨w, hw⟩ := hu
            cases hw
        · refine ⟨r, ?_⟩
          have h2 := visit_same (visitorFor { s with obj := { s.obj with input := rest } } c.tolerant) env.num s.world.openRead e d hbp hdp
          rw [← hd, hv] at h2
          simp only at h2
          simp only [compareVisit, himg, hv, h2.1, h2.2]
      obtain ⟨r, hcv⟩ := hcv
      rw [hcv]
      simp only
      cases r with
      | true => exact ⟨_, _, rfl, rfl, rfl, his, rfl, rfl⟩
      | false =>
        simp only [Bool.false_eq_true, if_false, differenceMeasurement]
        rw [himg]
        simp only
        obtain ⟨x, hx⟩ := difference_ok env (.data e) c (fun x n h => hdiff _ (by simp [hi]) x n h (by rw [hnt.1, h]; rfl) (by rw [hnt.2, h]; rfl))
        rw [hx]
        simp only [Res.andThen]
        exact ⟨_, _, rfl, by rw [emit_fs], by rw [emit_obj], by rw [emit_obj]; exact his, by rw [emit_obj], by rw [emit_obj]; rfl⟩
    · rw [if_neg hnt]
      obtain ⟨s', h1, h2, h3⟩ := hun { s with obj := { s.obj with input := rest } }
      simp only [h1, Res.andThen]
      exact ⟨_, _, rfl, h3, by rw [h2], by rw [h2]; exact his, by rw [h2], by rw [h2]; rfl⟩

/-- A run of such calls in compare mode ends normally and observes the calls in order. -/
theorem data_run (env : Env) (v : Int) : ∀ (cs : List Call) (s : St) (bytes : Str), s.obj.is = some bytes →
    (∀ b ∈ s.obj.input, Plainly b ∧ ∃ d, b = .data d) → (∀ c ∈ cs, (∃ d, c.meas = .data d) ∧ c.meas.name ≠ []) →
    (∀ b ∈ s.obj.input, ∀ c ∈ cs, Comparable env s.obj.tolerance b c) →
    (∀ b ∈ s.obj.input, ∀ content name, .textPlain content name ∈ cs → b.name = name → b.type = b!"text/plain" → ∃ t, env.diff b.content content = .ok t) →
    ∃ s', runProg env (straight v cs) s = (s', .ok v) ∧ s'.world.fs = s.world.fs ∧ s'.obj.expected = s.obj.expected ∧
      (s'.obj.inFileName = s.obj.inFileName ∧ s'.obj.searchPath = s.obj.searchPath) ∧
      (observed env (straight v cs) s).map (·.call) = cs ∧ ∀ o ∈ observed env (straight v cs) s, o.tolerance = s.obj.tolerance := by
  intro cs
  induction cs with
  | nil => intro s _ _ _ _ _ _; exact ⟨s, rfl, rfl, rfl, ⟨rfl, rfl⟩, rfl, by simp [straight, observed]⟩
  | cons c cs ih =>
    intro s bytes his hb hc hu hd
    obtain ⟨s', r, h1, h2, h3, h4, h6, h5⟩ := data_call env s c (hc c (by simp)).1 bytes his hb (hc c (by simp)).2
      (fun b hb => hu b hb c (by simp)) (fun b hb x n h => hd b hb x n (by simp [h]))
    have hsub : ∀ b ∈ s'.obj.input, b ∈ s.obj.input := by rw [h5]; exact fun b hb => List.mem_of_mem_drop hb
    obtain ⟨s'', g1, g2, g3, g6, g4, g5⟩ := ih s' bytes h4 (fun b hb' => hb b (hsub b hb')) (fun x hx => hc x (by simp [hx]))
      (fun b hb' x hx => by rw [h6]; exact hu b (hsub b hb') x (by simp [hx]))
      (fun b hb' x n hx => hd b (hsub b hb') x n (by simp [hx]))
    rw [straight, runProg, observed, h1]
    obtain ⟨i, u, hfr⟩ := runCall_frame env s c
    rw [h1] at hfr
    simp only at hfr
    refine ⟨s'', g1, by rw [g2, h2], by rw [g3, h3], by rw [g6.1, g6.2, hfr]; exact ⟨rfl, rfl⟩, by simp [g4], ?_⟩
    intro o ho
    rcases List.mem_cons.mp ho with rfl | ho
    · rfl
    · rw [g5 o ho, h6]

/-- Two measurements made by text calls agree exactly when they are the same measurement. -/
theorem text_agree (env : Env) (c : Call) (o : Obs) (d : DataM) (hd : c.meas = .data d) (ho : TextCall o.call) :
    Agree env (recordedMeas c) o ↔ c.meas = o.call.meas := by
  obtain ⟨⟨e, he⟩, ht⟩ := ho
  have hr : recordedMeas c = .data d := by rw [recordedMeas, hd]
  have s1 := recorded_standard c
  have s2 := recorded_standard o.call
  have hr2 : recordedMeas o.call = .data e := by rw [recordedMeas, he]
  rw [hr] at s1
  rw [hr2] at s2
  simp only at s1 s2
  have hm : SameValue env o (.data d) (.data e) ↔ d.content = e.content := by
    rw [SameValue.eq_def]
    cases hk : e.kind <;> simp [hk, ht]
  rw [Agree, hr, hd, he, hm]
  constructor
  · rintro ⟨h1, h2, h3⟩
    have hk : d.kind = e.kind := typeName_injective d.kind e.kind h2
    have h1' : d.name = e.name := h1
    obtain ⟨a1, a2, a3, a4⟩ := s1
    obtain ⟨b1, b2, b3, b4⟩ := s2
    rcases d with ⟨k, n, x, en, z, es, da⟩
    rcases e with ⟨k', n', x', en', z', es', da'⟩
    simp only at *
    rw [hk, h1', h3, a1, a2, a3, a4, b1, b2, b3, b4]
  · intro h
    cases h
    exact ⟨rfl, rfl, rfl⟩

theorem text_failures (env : Env) : ∀ (cs : List Call) (os : List Obs),
    (∀ c ∈ cs, ∃ d, c.meas = .data d) → (∀ o ∈ os, TextCall o.call) →
    failures env (cs.map recordedMeas) os = mismatches (cs.map Call.meas) (os.map fun o => o.call.meas) := by
  intro cs os
  induction os generalizing cs with
  | nil => intro _ _; cases cs <;> simp [failures, mismatches]
  | cons o os ih =>
    intro hc ho
    cases cs with
    | nil =>
      have := ih [] (by simp) (fun x hx => ho x (by simp [hx]))
      simpa [failures, mismatches] using this
    | cons c cs =>
      have := ih cs (fun x hx => hc x (by simp [hx])) (fun x hx => ho x (by simp [hx]))
      obtain ⟨d, hd⟩ := hc c (by simp)
      have ha := text_agree env c o d hd (ho o (by simp))
      simp only [List.map_cons, failures, mismatches, this]
      by_cases h : c.meas = o.call.meas
      · rw [if_pos (ha.mpr h), if_pos h]
      · rw [if_neg (fun h' => h (ha.mp h')), if_neg h]

/-- Comparing texts and numbers with a baseline that was read: the value of `Main`. -/
theorem compare_data_at (tol : ℚ) (sp more : List Str) (hstop : Stops more) (env : Env) (fuel : Nat) (hfuel : 1 < fuel) (prog f : Str) (w : World) (bytes : Str) (hf : f ≠ [])
    (hsp : (if searchPathList w.fs f sp = [] then f else searchPathList w.fs f sp) = f)
    (h1 : isFile w.fs f = true) (h2 : isReadable w.fs f = true) (h3 : w.openRead f = some bytes) (ms : List Meas)
    (hread : env.readXML bytes = .ok ms) (hplain : ∀ b ∈ ms, Plainly b ∧ ∃ d, b = .data d)
    (cs : List Call) (htext : ∀ c ∈ cs, (∃ d, c.meas = .data d) ∧ c.meas.name ≠ []) (hsafe : ∀ b ∈ ms, ∀ c ∈ cs, Comparable env tol b c)
    (hdiff : ∀ b ∈ ms, ∀ content name, .textPlain content name ∈ cs → b.name = name → b.type = b!"text/plain" → ∃ t, env.diff b.content content = .ok t) :
    ∃ os : List Obs, os.map (·.call) = cs ∧ (∀ o ∈ os, o.tolerance = tol) ∧
      (main env (fun _ => straight 0 cs) fuel (prog :: b!"-I" :: f :: more) ⟨{ tolerance := tol, searchPath := sp }, w⟩).2 = .ok (failures env ms os) := by
  obtain ⟨hp, hb, hpres⟩ := compare_begin_at tol sp more hstop env fuel hfuel prog f w bytes hf hsp h1 h2 h3 ms hread
  generalize hs1 : (⟨{ tolerance := tol, searchPath := sp, unmatched := 0 + 1, inFileName := f, is := some bytes, input := ms }, w⟩ : St) = s1 at hb
  have e1 : s1.obj.is = some bytes := by rw [← hs1]
  have e2 : s1.obj.input = ms := by rw [← hs1]
  have e3 : s1.world = w := by rw [← hs1]
  have e4 : s1.obj.expected = 0 := by rw [← hs1]
  have e5 : s1.obj.tolerance = tol := by rw [← hs1]
  obtain ⟨s2, g1, g2, g3, g6, g4, g5⟩ := data_run env 0 cs s1 bytes e1 (by rw [e2]; exact hplain) htext (by rw [e2, e5]; exact hsafe) (by rw [e2]; exact hdiff)
  refine ⟨_, g4, by rw [← e5]; exact g5, ?_⟩
  have hobs : ∀ x ∈ observed env (straight 0 cs) s1, x.call ∈ cs := by
    intro x hx
    rw [← g4]
    exact List.mem_map.mpr ⟨x, hx, rfl⟩
  have := C39_main_value env (fun _ => straight 0 cs) fuel (prog :: b!"-I" :: f :: more) ⟨{ tolerance := tol, searchPath := sp }, w⟩ _ _ _ s2 0 hp hb g1 rfl hf
    (by rw [e2]; exact fun b hb => (hplain b hb).1) (fun x hx => (htext _ (hobs x hx)).2) (by
      rw [g2, e3, baselinePresent, g6.1, g6.2, ← hs1]; exact hpres)
  rw [this, g3, e4, e2]
  simp

theorem compare_data (tol : ℚ) (env : Env) (fuel : Nat) (hfuel : 1 < fuel) (prog f : Str) (w : World) (bytes : Str) (hf : f ≠ [])
    (h1 : isFile w.fs f = true) (h2 : isReadable w.fs f = true) (h3 : w.openRead f = some bytes) (ms : List Meas)
    (hread : env.readXML bytes = .ok ms) (hplain : ∀ b ∈ ms, Plainly b ∧ ∃ d, b = .data d)
    (cs : List Call) (htext : ∀ c ∈ cs, (∃ d, c.meas = .data d) ∧ c.meas.name ≠ []) (hsafe : ∀ b ∈ ms, ∀ c ∈ cs, Comparable env tol b c)
    (hdiff : ∀ b ∈ ms, ∀ content name, .textPlain content name ∈ cs → b.name = name → b.type = b!"text/plain" → ∃ t, env.diff b.content content = .ok t) :
    ∃ os : List Obs, os.map (·.call) = cs ∧ (∀ o ∈ os, o.tolerance = tol) ∧
      (main env (fun _ => straight 0 cs) fuel [prog, b!"-I", f] ⟨{ tolerance := tol }, w⟩).2 = .ok (failures env ms os) :=
  compare_data_at tol [] [] (by simp [Stops]) env fuel hfuel prog f w bytes hf rfl h1 h2 h3 ms hread hplain cs htext hsafe hdiff

/-- Comparing texts with a baseline that was read: the value of `Main`. -/
theorem compare_texts (env : Env) (fuel : Nat) (hfuel : 1 < fuel) (prog f : Str) (w : World) (bytes : Str) (hf : f ≠ [])
    (h1 : isFile w.fs f = true) (h2 : isReadable w.fs f = true) (h3 : w.openRead f = some bytes) (ms : List Meas)
    (hread : env.readXML bytes = .ok ms) (hplain : ∀ b ∈ ms, Plainly b ∧ ∃ d, b = .data d)
    (cs : List Call) (htext : ∀ c ∈ cs, TextCall c ∧ c.meas.name ≠ [])
    (hdiff : ∀ b ∈ ms, ∀ content name, .textPlain content name ∈ cs → ∃ t, env.diff b.content content = .ok t) :
    ∃ os : List Obs, os.map (·.call) = cs ∧
      (main env (fun _ => straight 0 cs) fuel [prog, b!"-I", f] ⟨{}, w⟩).2 = .ok (failures env ms os) := by
  obtain ⟨os, g1, -, g2⟩ := compare_data _ env fuel hfuel prog f w bytes hf h1 h2 h3 ms hread hplain cs (fun c hc => ⟨(htext c hc).1.1, (htext c hc).2⟩)
    (fun b _ c hc e d k _ _ _ _ ht => by rw [(htext c hc).1.2] at ht; cases ht) (fun b hb x n hx _ _ => hdiff b hb x n hx)
  exact ⟨os, g1, g2⟩

/-- **C45.** Record texts and numbers, then run a changed test that compares texts and numbers exactly: `Main` returns the number of
measurements of the second run that are not the measurement recorded at their position.  Nothing is assumed about the two runs being
related.  The difference of two texts must be computable where the two runs hold plain texts (see the findings about `Diff`). -/
theorem C45_changes_counted (X : Expat) (hX : Conforms X) (env : Env) (cs cs' : List Call) (fuel : Nat) (hfuel : 1 < fuel)
    (prog f : Str) (w : World) (hw : Comment (commentText w)) (hf : f ≠ []) (hcreate : w.creatable (cstr f) = true)
    (hnew : w.fs.stat (cstr f) = none ∨ (w.fs.canRead (cstr f) = true ∧ w.fs.canWrite (cstr f) = true))
    (hdata : ∀ c ∈ cs, ∃ d, c.meas = .data d) (hname : ∀ c ∈ cs, ∀ x ∈ c.meas.name, AttrChar x)
    (hcontent : ∀ c ∈ cs, ∀ x ∈ c.meas.content, Printable x)
    (htext : ∀ c ∈ cs', TextCall c ∧ c.meas.name ≠ [])
    (hdiff : ∀ c ∈ cs, ∀ content name, .textPlain content name ∈ cs' → ∃ t, env.diff c.meas.content content = .ok t)
    (w1 : World) (hw1 : (main (withXML X env) (fun _ => straight 0 cs) fuel [prog, b!"-O", f] ⟨{}, w⟩).1.world = w1) :
    (main (withXML X env) (fun _ => straight 0 cs') fuel [prog, b!"-I", f] ⟨{}, w1⟩).2 =
      .ok (mismatches (cs.map Call.meas) (cs'.map Call.meas)) := by
  obtain ⟨⟨r1, r2, r3, r4⟩, hv⟩ := record_run X env 0 cs fuel hfuel prog f w hf hcreate hnew
  have hread := read_recording X hX cs w hw (fun c hc => by
    obtain ⟨d, hd⟩ := hdata c hc
    exact recorded_clean c d hd (hname c hc) (hcontent c hc))
  rw [hw1] at r1 r2 r3 r4
  obtain ⟨bytes, hbytes⟩ : ∃ b, b = header w ++ (cs.map fun c => line (recordedMeas c)).flatten ++ footer := ⟨_, rfl⟩
  rw [← hbytes] at r3 hread
  obtain ⟨os, hos, hmain⟩ := compare_texts (withXML X env) fuel hfuel prog f w1 bytes hf r1 r2 r3 (cs.map recordedMeas) hread (by
      intro b hb
      obtain ⟨c, hc, rfl⟩ := List.mem_map.mp hb
      obtain ⟨d, hd⟩ := hdata c hc
      exact ⟨recorded_plainly c, d, by rw [recordedMeas, hd]⟩) cs' htext (by
      intro b hb x n hx
      obtain ⟨c, hc, rfl⟩ := List.mem_map.mp hb
      obtain ⟨d, hd⟩ := hdata c hc
      have := hdiff c hc x n hx
      rw [recordedMeas, hd]
      rw [hd] at this
      exact this)
  have hall : ∀ o ∈ os, TextCall o.call := fun o ho => (htext _ (by rw [← hos]; exact List.mem_map.mpr ⟨o, ho, rfl⟩)).1
  rw [hmain, text_failures _ cs _ hdata hall, ← hos, List.map_map]
  rfl

theorem mismatches_zero : ∀ (bs os : List Meas), mismatches bs os = 0 ↔ os <+: bs := by
  intro bs os
  induction os generalizing bs with
  | nil => simp [mismatches]
  | cons o os ih =>
    cases bs with
    | nil => simp [mismatches]
    | cons b bs =>
      rw [mismatches, List.cons_prefix_cons, ← ih]
      by_cases h : b = o
      · simp [h]
      · simp [h, Ne.symm h]

/-- **C45.** So the second run passes exactly when it makes the recorded measurements, or stops making them early. -/
theorem C45_passes_iff (X : Expat) (hX : Conforms X) (env : Env) (cs cs' : List Call) (fuel : Nat) (hfuel : 1 < fuel)
    (prog f : Str) (w : World) (hw : Comment (commentText w)) (hf : f ≠ []) (hcreate : w.creatable (cstr f) = true)
    (hnew : w.fs.stat (cstr f) = none ∨ (w.fs.canRead (cstr f) = true ∧ w.fs.canWrite (cstr f) = true))
    (hdata : ∀ c ∈ cs, ∃ d, c.meas = .data d) (hname : ∀ c ∈ cs, ∀ x ∈ c.meas.name, AttrChar x)
    (hcontent : ∀ c ∈ cs, ∀ x ∈ c.meas.content, Printable x)
    (htext : ∀ c ∈ cs', TextCall c ∧ c.meas.name ≠ [])
    (hdiff : ∀ c ∈ cs, ∀ content name, .textPlain content name ∈ cs' → ∃ t, env.diff c.meas.content content = .ok t)
    (w1 : World) (hw1 : (main (withXML X env) (fun _ => straight 0 cs) fuel [prog, b!"-O", f] ⟨{}, w⟩).1.world = w1) :
    (main (withXML X env) (fun _ => straight 0 cs') fuel [prog, b!"-I", f] ⟨{}, w1⟩).2 = .ok 0 ↔
      cs'.map Call.meas <+: cs.map Call.meas := by
  rw [C45_changes_counted X hX env cs cs' fuel hfuel prog f w hw hf hcreate hnew hdata hname hcontent htext hdiff w1 hw1,
    ← mismatches_zero]
  simp

/-- A changed text and a changed number are two failures; the third measurement is the same. -/
example : ∃ w1, (main (withXML reference (smallEnv [])) (fun _ => straight 0 [.textString b!"a<c" b!"s", .boolean true b!"b" false, .textString b!"z" b!"t"]) 2
    [b!"prog", b!"-I", b!"f"] ⟨{}, w1⟩).2 = .ok 2 :=
  ⟨_, C45_changes_counted reference reference_conforms (smallEnv [])
    [.textString b!"a<b" b!"s", .boolean false b!"b" false, .textString b!"z" b!"t"]
    [.textString b!"a<c" b!"s", .boolean true b!"b" false, .textString b!"z" b!"t"] 2 (by decide)
    b!"prog" b!"f" plainWorld plain_comment (by decide) rfl (Or.inl rfl)
    (by simp [Call.meas]) (by simp only [List.mem_cons, List.not_mem_nil, or_false, forall_eq_or_imp, forall_eq]; decide)
    (by simp only [List.mem_cons, List.not_mem_nil, or_false, forall_eq_or_imp, forall_eq]; decide)
    (by simp [TextCall, Call.meas, Call.tolerant, Meas.name, DataM.setBoolean, DataM.setContent])
    (by intro c _ x n _; exact ⟨_, rfl⟩) _ rfl⟩

/-- **C44, negative.** A test that measures a string with the line ends of another system fails when it is repeated against its own record. -/
theorem C44_line_ends (X : Expat) (hX : Conforms X) (env : Env) (fuel : Nat) (hfuel : 1 < fuel)
    (prog f : Str) (w : World) (hw : Comment (commentText w)) (hf : f ≠ []) (hcreate : w.creatable (cstr f) = true)
    (hnew : w.fs.stat (cstr f) = none ∨ (w.fs.canRead (cstr f) = true ∧ w.fs.canWrite (cstr f) = true))
    (name a b : Str) (hname : name ≠ []) (hn : ∀ c ∈ name, AttrChar c) (ha : ∀ c ∈ a, Printable c) (hb : ∀ c ∈ b, Printable c)
    (test : List Str → Prog) (htest : test = fun _ => straight 0 [.textString (a ++ b!"\r\n" ++ b) name])
    (w1 : World) (hw1 : (main (withXML X env) test fuel [prog, b!"-O", f] ⟨{}, w⟩).1.world = w1) :
    (main (withXML X env) test fuel [prog, b!"-I", f] ⟨{}, w1⟩).2 = .ok 1 := by
  subst htest
  obtain ⟨⟨r1, r2, r3, r4⟩, hv⟩ := record_run X env 0 [.textString (a ++ b!"\r\n" ++ b) name] fuel hfuel prog f w hf hcreate hnew
  obtain ⟨t, ht, hread⟩ := C26_line_ends X hX w hw .string name a b hn ha hb
  rw [hw1] at r1 r2 r3 r4
  have hl : ([Call.textString (a ++ b!"\r\n" ++ b) name].map fun c => line (recordedMeas c)).flatten = t ++ b!"\n" := by
    obtain ⟨t', h1, h2⟩ := recorded_print (.textString (a ++ b!"\r\n" ++ b) name)
    have : t' = t := by
      have e : recordedMeas (.textString (a ++ b!"\r\n" ++ b) name) = .data { kind := .string, name := name, content := a ++ b!"\r\n" ++ b } := rfl
      rw [e, ht] at h1
      exact (Except.ok.inj h1).symm
    rw [List.map_cons, List.map_nil, List.flatten_cons, List.flatten_nil, List.append_nil, ← h2, this]
  rw [hl] at r3
  generalize header w ++ (t ++ b!"\n") ++ footer = bytes at r3 hread
  obtain ⟨os, hos, hmain⟩ := compare_texts (withXML X env) fuel hfuel prog f w1 bytes hf r1 r2 r3
    [.data { kind := .string, name := name, content := a ++ b!"\n" ++ b }] hread
    (by intro b hb; simp only [List.mem_singleton] at hb; subst hb; exact ⟨⟨rfl, by simp⟩, _, rfl⟩)
    [.textString (a ++ b!"\r\n" ++ b) name]
    (by intro c hc; simp only [List.mem_singleton] at hc; subst hc; exact ⟨⟨⟨_, rfl⟩, rfl⟩, hname⟩)
    (by intro b _ x n hx; simp at hx)
  rw [hmain]
  obtain ⟨o, rfl, ho⟩ := List.map_eq_singleton_iff.mp hos
  have hna : ¬ Agree (withXML X env) (.data { kind := .string, name := name, content := a ++ b!"\n" ++ b }) o := by
    rintro ⟨_, _, h⟩
    rw [ho] at h
    have h' : a ++ b!"\n" ++ b = a ++ b!"\r\n" ++ b := h
    simp at h'
  rw [failures, if_neg hna, failures]
  rfl

/-- **C44, negative.** The least integer compared with any tolerance against its own record is undefined behaviour: its absolute value is
computed. -/
theorem C44_least_integer (env : Env) (s : St) (bytes : Str) (his : s.obj.is = some bytes) (v : Int) (hv : longToInt v = intMin)
    (name : Str) (htol : s.obj.tolerance ≠ 0) (rest : List Meas) (hin : s.obj.input = recordedMeas (.integer v name true) :: rest) :
    IsUB (runCall env s (.integer v name true)).2 := by
  rw [runCall, compareMode_is his, if_pos rfl, compareMeasurement, hin]
  obtain ⟨h1, h2⟩ := recorded_name (.integer v name true)
  simp only [if_pos (And.intro h1 h2)]
  have hl : locateBaseline { s with obj := { s.obj with input := rest } } (recordedMeas (.integer v name true)) (Call.integer v name true).meas =
      .ok (recordedMeas (.integer v name true)) := rfl
  have himg : imagePair env (recordedMeas (.integer v name true)) (Call.integer v name true).meas = none := by
    simp only [imagePair, recordedMeas, Call.meas]
    cases env.image <;> rfl
  simp only [hl, compareVisit, himg]
  obtain ⟨d, hd⟩ : ∃ d, d = ({ kind := .num .integer, name := name } : DataM).setInteger (longToInt v) := ⟨_, rfl⟩
  have e1 : recordedMeas (.integer v name true) = .data d := by rw [hd]; rfl
  have e2 : (Call.integer v name true).meas = .data d := by rw [hd]; rfl
  have hk : d.kind = .num .integer := by rw [hd]; rfl
  have hc : getInteger d.content = intMin := by
    have := (C28_long_truncated { kind := .num .integer, name := name } v 0).1
    rw [hd, this, hv]
  rw [e1, e2, visit_data, hk]
  simp only
  rw [compareNumeric_eq _ _ _ d d .integer .integer hk hk]
  have ht : (visitorFor { s with obj := { s.obj with input := rest } } (Call.integer v name true).tolerant).getTolerance ≠ 0 := by
    rw [visitorFor_tolerance]; exact htol
  rw [if_pos ht]
  have : isEqualTolerant env.num .integer d.content .integer d.content
      (visitorFor { s with obj := { s.obj with input := rest } } (Call.integer v name true).tolerant).getTolerance =
      .error (.ub "abs(INT_MIN)") := by
    have hb : ¬ (intMin - intMin ≤ intMin ∨ intMax < intMin - intMin) := by decide
    simp only [isEqualTolerant, hc, tolerantEqualInt]
    rw [if_neg hb, if_neg (by simp), if_pos trivial]
  rw [this]
  exact ⟨_, rfl⟩

/-- The least integer, and a number that is truncated to it. -/
example : longToInt (-2147483648) = intMin ∧ longToInt 2147483648 = intMin := by decide

end Verif.Xml
