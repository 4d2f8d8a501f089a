import Verif.Whole.Late
import Verif.Whole.NamedSpec

/-!
# Property C134: a baseline that is named inside the test is not read
-/

set_option linter.unusedSimpArgs false

namespace Verif.Whole
open Verif.Measurement Verif.Measurement.Spec Verif.Regression Verif.Regression.Spec Verif.Xml Verif.Xml.Spec Spec
open Verif.Path (isFile isReadable isWritable isDirectory)
open Verif.Pipe.Spec (expectation)

/-- The calls of the measurement functions (tfRegressionTest.h:154-193) one after the other, and then another program. -/
def early (p : Prog) : List Call → Prog
  | [] => p
  | c :: cs => .call c fun _ => early p cs

/-- A test that measures, calls `SetInFileName` (tfRegressionTest.cpp:84-86), measures on and returns a value. -/
def namingTest (cs : List Call) (b : Str) (cs' : List Call) (v : Int) (_ : List Str) : Prog := early (.setInFileName b (straight v cs')) cs

theorem unmatched_print (c : Call) (n : Str) : ∃ t, (c.meas.setName n).print = .ok t ∧ t ++ b!"\n" = line (c.meas.setName n) := by
  have h : match c.meas.setName n with
    | .data d => d.encoding = b!"none" ∧ d.compression = b!"none" ∧ d.escape = true ∧ d.data = none
    | .file f => f.escape = true := by
    cases c <;> simp [Meas.setName, Call.meas, DataM.setInteger, DataM.setBoolean, DataM.setContent]
  cases hm : c.meas.setName n with
  | data d =>
    rw [hm] at h
    obtain ⟨h1, h2, h3, _⟩ := h
    simp only [Meas.print, Meas.printContent, Meas.escape, h3, if_true, C25_escape_exact, bind, Except.bind, pure, Except.pure]
    exact ⟨_, rfl, by simp [Meas.startTag, Meas.endTag, Meas.element, h1, h2, line, Meas.name, Meas.type, List.append_assoc]⟩
  | file f =>
    rw [hm] at h
    simp only at h
    simp only [Meas.print, Meas.printContent, Meas.escape, h, if_true, C25_escape_exact, bind, Except.bind, pure, Except.pure]
    exact ⟨_, rfl, by simp [Meas.startTag, Meas.endTag, Meas.element, line, Meas.name, Meas.type, List.append_assoc]⟩

theorem mode_congr (s s' : St) (h : s.obj.is = none) (h' : s'.obj.is = none) (hn : s'.obj.inFileName = s.obj.inFileName) (hp : s'.obj.searchPath = s.obj.searchPath) (hf : s'.world.fs = s.world.fs) :
    s'.compareMode = s.compareMode := by
  rw [Bool.eq_iff_iff, compareMode_noStream _ h', compareMode_noStream _ h, baselinePresent, baselinePresent, hn, hp, hf]

/-- A call when nothing is compared. -/
theorem call_off (env : Env) (s : St) (c : Call) (h : s.compareMode = false) : runCall env s c = (s.emit (line (recordedMeas c)), .ok 0) := by
  obtain ⟨t, ht, he⟩ := recorded_print c
  rw [runCall, h, if_neg (by simp), recorded_eq]
  simp only [ht, he]

/-- A call that is compared when there is nothing (left) of the baseline. -/
theorem call_on (env : Env) (s : St) (c : Call) (h : s.compareMode = true) (hi : s.obj.input = []) :
    runCall env s c = (({ s with obj := { s.obj with unmatched := s.obj.unmatched + 1 } } : St).emit (line (c.meas.setName (b!"Unmatched " ++ c.meas.name))), .ok 1) := by
  obtain ⟨t, ht, he⟩ := unmatched_print c (b!"Unmatched " ++ c.meas.name)
  rw [runCall, h, if_pos rfl, compareMeasurement, hi]
  simp only [unmatchedMeasurement, ht, he, Res.andThen]

theorem early_off (env : Env) (p : Prog) : ∀ (cs : List Call) (s : St), s.obj.is = none → s.compareMode = false →
    ∃ w', runProg env (early p cs) s = runProg env p ⟨s.obj, w'⟩ ∧ w'.fs = s.world.fs ∧ written s.obj.os w' = written s.obj.os s.world ++ recordedLines cs := by
  intro cs
  induction cs with
  | nil => intro s _ _; exact ⟨s.world, rfl, rfl, by simp [recordedLines]⟩
  | cons c cs ih =>
    intro s h1 h2
    have ho := emit_obj s (line (recordedMeas c))
    have hf := emit_fs s (line (recordedMeas c))
    have hw := written_emit s (line (recordedMeas c))
    rw [early, runProg, call_off env s c h2]
    obtain ⟨w', g1, g2, g3⟩ := ih (s.emit (line (recordedMeas c))) (by rw [ho]; exact h1) (by rw [mode_congr s _ h1 (by rw [ho]; exact h1) (by rw [ho]) (by rw [ho]) hf]; exact h2)
    rw [ho] at g1 g3
    exact ⟨w', g1, g2.trans hf, by rw [g3, hw, recordedLines, recordedLines, List.flatMap_cons, List.append_assoc]⟩

theorem straight_on (env : Env) (v : Int) : ∀ (cs : List Call) (s : St), s.obj.is = none → s.compareMode = true → s.obj.input = [] →
    ∃ w', runProg env (straight v cs) s = (⟨{ s.obj with unmatched := s.obj.unmatched + cs.length }, w'⟩, .ok v) ∧ w'.fs = s.world.fs ∧ written s.obj.os w' = written s.obj.os s.world ++ unmatchedLines cs := by
  intro cs
  induction cs with
  | nil => intro s _ _ _; exact ⟨s.world, by simp [straight, runProg], rfl, by simp [unmatchedLines]⟩
  | cons c cs ih =>
    intro s h1 h2 h3
    obtain ⟨s1, hs1⟩ : ∃ s1 : St, s1 = { s with obj := { s.obj with unmatched := s.obj.unmatched + 1 } } := ⟨_, rfl⟩
    obtain ⟨t, ht⟩ : ∃ t, t = line (c.meas.setName (b!"Unmatched " ++ c.meas.name)) := ⟨_, rfl⟩
    have ho := emit_obj s1 t
    have hf := emit_fs s1 t
    have hw := written_emit s1 t
    rw [straight, runProg, call_on env s c h2 h3, ← hs1, ← ht]
    obtain ⟨w', g1, g2, g3⟩ := ih (s1.emit t) (by rw [ho, hs1]; exact h1)
      (by rw [mode_congr s _ h1 (by rw [ho, hs1]; exact h1) (by rw [ho, hs1]) (by rw [ho, hs1]) (by rw [hf, hs1])]; exact h2) (by rw [ho, hs1]; exact h3)
    rw [ho] at g1 g3
    have hos : s1.obj.os = s.obj.os := by rw [hs1]
    have hsw : s1.world = s.world := by rw [hs1]
    rw [hos] at g3 hw
    rw [hsw] at hw hf
    refine ⟨w', ?_, g2.trans hf, by rw [g3, hw, unmatchedLines, unmatchedLines, List.flatMap_cons, ht, List.append_assoc]⟩
    simp only
    rw [g1, hs1]
    simp only [List.length_cons, Nat.cast_add, Nat.cast_one]
    rw [show s.obj.unmatched + 1 + (cs.length : Int) = s.obj.unmatched + ((cs.length : Int) + 1) by omega]

theorem straight_off (env : Env) (v : Int) (cs : List Call) (s : St) (h1 : s.obj.is = none) (h2 : s.compareMode = false) :
    ∃ w', runProg env (straight v cs) s = (⟨s.obj, w'⟩, .ok v) ∧ w'.fs = s.world.fs ∧ written s.obj.os w' = written s.obj.os s.world ++ recordedLines cs := by
  have : ∀ cs, straight v cs = early (.ret v) cs := by
    intro cs
    induction cs with
    | nil => rfl
    | cons c cs ih => rw [straight, early, ih]
  rw [this]
  exact early_off env (.ret v) cs s h1 h2

open Classical in
/-- **C134.** A test, run with `-O` and without `-I`, calls `SetInFileName` between its measurements.  If the file looked up for that name can be read, it is not read all the same: each of the measurements after the call
is written under its name preceded by "Unmatched ", `Main` returns their number (if the test returns what is expected), and the document is left without its end.  If it cannot be read, everything is recorded as if
nothing had been named. -/
theorem C134_named_inside (sp : List Str) (env : Env) (cs cs' : List Call) (b : Str) (v : Int) (prog : Str) (ps : List (Str × Str)) (args : List Str) (fuel : Nat) (w w' : World) (f : Str)
    (hopt : ∀ p ∈ ps, IsOption p.1) (href : ∀ p ∈ ps, ¬ Refused w.fs p) (hstop : Stops args) (hfuel : ps.length < fuel)
    (hI : lastValue b!"-I" ps = none) (hO : lastValue b!"-O" ps = some f) (hf : f ≠ []) (hw : w.openWrite f = some w')
    (hnew : w.fs.stat (cstr f) = none ∨ w.fs.canWrite (cstr f) = true) :
    (main env (namingTest cs b cs' v) fuel (prog :: (flat ps ++ args)) ⟨{ searchPath := sp }, w⟩).2 =
      .ok (if v ≠ expectation ps then v else if CanBeRead w' b ((values b!"-P" ps).reverse ++ sp) then (cs'.length : Int) else 0) ∧
    (main env (namingTest cs b cs' v) fuel (prog :: (flat ps ++ args)) ⟨{ searchPath := sp }, w⟩).1.world.bytes (cstr f) =
      header w ++ recordedLines cs ++ if CanBeRead w' b ((values b!"-P" ps).reverse ++ sp) then unmatchedLines cs' else recordedLines cs' ++ footer := by
  have hcreate : w.creatable (cstr f) = true := by
    rw [World.openWrite] at hw
    by_contra h
    simp [h] at hw
  have hnw : (isFile w.fs f && !isWritable w.fs f) = false := by
    rcases hnew with h | h
    · simp [isFile, h]
    · by_cases hd : w.fs.stat (cstr f) = some .regular <;> simp [isWritable, isDirectory, isFile, h, hd]
  have hparse := C35_options_removed w.fs fuel { searchPath := sp, unmatched := 0 + 1 } prog ps args hopt href hstop hfuel
  rw [hI, hO] at hparse
  simp only [hnw, Bool.false_eq_true, if_false] at hparse
  obtain ⟨o, ho⟩ : ∃ o, o = (parseArguments w.fs fuel { searchPath := sp, unmatched := 0 + 1 } (prog :: (flat ps ++ args))).1 := ⟨_, rfl⟩
  have hp : parseArguments w.fs fuel { searchPath := sp, unmatched := 0 + 1 } (prog :: (flat ps ++ args)) = (o, .ok (prog :: args)) := by rw [ho, hparse]
  rw [hparse] at ho
  simp only at ho
  have ho1 : o.is = none := by rw [ho]
  have ho2 : o.inFileName = [] := by rw [ho]
  have ho3 : o.outFileName = f := by rw [ho]
  have ho4 : o.expected = expectation ps := by rw [ho]; rfl
  have ho5 : o.searchPath = (values b!"-P" ps).reverse ++ sp := by rw [ho]
  have ho6 : o.unmatched = 1 := by rw [ho]; rfl
  have ho7 : o.input = [] := by rw [ho]
  clear hparse ho
  obtain ⟨w1, hw1, hb, hbytes⟩ := begin_record env ⟨o, w⟩ ho1 ho2 (by rw [ho3]; exact hf) (by rw [ho3]; exact hcreate)
  simp only [ho3] at hw1 hbytes
  rw [hw] at hw1
  cases hw1
  obtain ⟨s1, hs1⟩ : ∃ s1, s1 = St.emit ⟨{ o with os := some o.outFileName }, w'⟩ (header w) := ⟨_, rfl⟩
  have hb : beginMeasurement env ⟨o, w⟩ = (s1, .ok ()) := by rw [hs1]; exact hb
  have q1 : s1.obj = { o with os := some f } := by rw [hs1, emit_obj, ho3]
  have q2 : s1.world.fs = w'.fs := by rw [hs1, emit_fs]
  have q3 : written (some f) s1.world = header w := by
    have := written_emit ⟨{ o with os := some o.outFileName }, w'⟩ (header w)
    rw [← hs1] at this
    simp only [ho3] at this
    simpa [written, hbytes] using this
  obtain ⟨w2, a1, a2, a3⟩ := early_off env (.setInFileName b (straight v cs')) cs s1 (by rw [q1]; exact ho1) (recording s1 (by rw [q1]; exact ho1) (by rw [q1]; exact ho2))
  rw [q1] at a1 a3
  simp only [q3] at a3
  rw [runProg] at a1
  simp only at a1
  obtain ⟨s2, hs2⟩ : ∃ s2 : St, s2 = ⟨{ o with os := some f, inFileName := b }, w2⟩ := ⟨_, rfl⟩
  have b1 : s2.obj.is = none := by rw [hs2]; exact ho1
  have hmode : ∀ s : St, s.obj.is = none → s.obj.inFileName = b → s.obj.searchPath = o.searchPath → s.world.fs = w'.fs →
      (s.compareMode = true ↔ CanBeRead w' b ((values b!"-P" ps).reverse ++ sp)) := by
    intro s h1 h2 h3 h4
    rw [compareMode_noStream s h1, h4, present_iff s.obj w', h2, h3, ho5]
  have hm2 := hmode s2 b1 (by rw [hs2]) (by rw [hs2]) (by rw [hs2]; exact a2.trans q2)
  have hrun : runProg env (namingTest cs b cs' v (prog :: args)) s1 = runProg env (straight v cs') s2 := by rw [namingTest, a1, hs2]
  have htry : ∀ s3 : St, runProg env (straight v cs') s2 = (s3, .ok v) →
      tryBlock env (namingTest cs b cs' v) fuel (prog :: (flat ps ++ args)) ⟨{ searchPath := sp }, w⟩ =
        ({ endMeasurement s3 with obj := { (endMeasurement s3).obj with unmatched := (endMeasurement s3).obj.unmatched - 1 } }, v, none) := by
    intro s3 h3
    rw [tryBlock]
    simp only
    rw [show parseArguments w.fs fuel { searchPath := sp, unmatched := 0 + 1 } (prog :: (flat ps ++ args)) = (o, .ok (prog :: args)) from hp]
    simp only
    rw [hb]
    simp only
    rw [hrun, h3]
  by_cases hc : CanBeRead w' b ((values b!"-P" ps).reverse ++ sp)
  · obtain ⟨w3, c1, c2, c3⟩ := straight_on env v cs' s2 b1 (hm2.mpr hc) (by rw [hs2]; exact ho7)
    have htry := htry _ c1
    have hfs3 : w3.fs = w'.fs := by rw [c2, hs2]; exact a2.trans q2
    have he : (⟨{ s2.obj with unmatched := s2.obj.unmatched + cs'.length }, w3⟩ : St).compareMode = true := (hmode ⟨{ s2.obj with unmatched := s2.obj.unmatched + cs'.length }, w3⟩ b1 (by rw [hs2]) (by rw [hs2]) hfs3).mpr hc
    simp only [main, htry, mainValue]
    simp only [endMeasurement, he, if_true]
    rw [if_pos hc, if_pos hc]
    constructor
    · have hex : s2.obj.expected = expectation ps := by rw [hs2]; exact ho4
      by_cases hv : v = expectation ps
      · simp only [hex, hv, ne_eq, not_true_eq_false, if_false]
        rw [if_pos]
        rotate_left
        · refine (hmode _ rfl ?_ ?_ hfs3).mpr hc <;> simp [hs2]
        have : s2.obj.unmatched = 1 := by rw [hs2]; exact ho6
        rw [this]
        congr 1
        omega
      · simp [hex, hv]
    · have : s2.obj.os = some f := by rw [hs2]
      rw [this] at c3
      have h2 : s2.world = w2 := by rw [hs2]
      rw [h2, a3] at c3
      exact c3
  · have hf2 : s2.compareMode = false := by
      rcases h : s2.compareMode with _ | _
      · rfl
      · exact absurd (hm2.mp h) hc
    obtain ⟨w3, c1, c2, c3⟩ := straight_off env v cs' s2 b1 hf2
    have htry := htry _ c1
    have hfs3 : w3.fs = w'.fs := by rw [c2, hs2]; exact a2.trans q2
    have hno : ∀ s : St, s.obj.is = none → s.obj.inFileName = b → s.obj.searchPath = o.searchPath → s.world.fs = w'.fs → s.compareMode = false := by
      intro s h1 h2 h3 h4
      rcases h : s.compareMode with _ | _
      · rfl
      · exact absurd ((hmode s h1 h2 h3 h4).mp h) hc
    have he : (⟨s2.obj, w3⟩ : St).compareMode = false := hno ⟨s2.obj, w3⟩ b1 (by rw [hs2]) (by rw [hs2]) hfs3
    simp only [main, htry, mainValue]
    simp only [endMeasurement, he, Bool.false_eq_true, if_false, emit_obj]
    rw [if_neg hc, if_neg hc]
    constructor
    · have hex : s2.obj.expected = expectation ps := by rw [hs2]; exact ho4
      by_cases hv : v = expectation ps
      · simp only [hex, hv, ne_eq, not_true_eq_false, if_false]
        rw [if_neg]
        rw [hno]
        · simp
        · rfl
        · simp [hs2]
        · simp [hs2]
        · rw [emit_fs]; exact hfs3
      · simp [hex, hv]
    · have hos : s2.obj.os = some f := by rw [hs2]
      have := written_emit ⟨s2.obj, w3⟩ footer
      simp only [hos] at this c3
      have h2 : s2.world = w2 := by rw [hs2]
      rw [c3, h2, a3] at this
      rw [← List.append_assoc]
      exact this

end Verif.Whole
