import Verif.Stderr.Props
import Verif.Xml.RunProps
import Verif.Regression.LeftoverProps

/-!
# Property C119: the error stream of whole runs
-/

set_option linter.unusedSimpArgs false

namespace Verif.Stderr
open Verif.Measurement Verif.Measurement.Spec Verif.Regression Verif.Regression.Spec Verif.Xml Verif.Xml.Spec Verif.Path
open _root_.Verif.Stderr.Spec

/-- What `BeginMeasurement` says when it succeeds. -/
theorem begin_lines (X : Expat) (line why : X.State → Str) (env : Env) (s0 s1 : St) (hbegin : beginMeasurement (withXML X env) s0 = (s1, .ok ())) :
    beginMeasurementE X line why s0 = (baselineLines X line why s1, s1, .ok ()) := by
  have hf := beginMeasurementE_forget X line why env s0
  rw [hbegin] at hf
  rw [beginMeasurementE] at hf ⊢
  rcases h1 : openOutput s0 with ⟨s2, f | ⟨⟩⟩
  · rw [h1] at hf
    cases hf
  rw [h1] at hf
  simp only [throwing] at hf ⊢
  rcases h2 : openInput s2 with ⟨s3, f | ⟨⟩⟩
  · rw [h2] at hf
    cases hf
  rw [h2] at hf
  simp only [throwing] at hf ⊢
  rw [startOrReadE] at hf ⊢
  rw [baselineLines]
  by_cases hc : s3.compareMode = true
  · rw [if_pos hc] at hf ⊢
    cases hi : s3.obj.is with
    | none =>
      rw [hi] at hf
      simp only at hf ⊢
      cases hf
      rw [hi]
    | some b =>
      rw [hi] at hf
      simp only at hf ⊢
      rcases hr : readXMLM X line why b with ⟨ms, f | xs⟩
      · rw [hr] at hf
        cases hf
      · rw [hr] at hf
        simp only [Except.mapError, Prod.mk.injEq, and_true] at hf
        subst hf
        simp only [hi, hr]
  · rw [if_neg hc] at hf ⊢
    simp only [Except.mapError, Prod.mk.injEq, and_true] at hf
    subst hf
    have : (s3.emit (header s3.world)).obj.is = none := by
      have : s3.obj.is = none := by
        cases hi : s3.obj.is with
        | none => rfl
        | some b => exact absurd (by simp [St.compareMode, hi]) hc
      rw [St.emit]
      split <;> exact this
    rw [this]

/-- **C119.** The run of a test: the lines about the options `-O`, those about the baseline, then what the test and its measurements say, in the order in which it happens, and at the end one line if the test
throws. -/
theorem C119_run (X : Expat) (line why : X.State → Str) (env : Env) (voice : ImageVoice) (thrown : Fault → Thrown) (test : List Str → Talk) (fuel : Nat) (prog : Str) (ps : List (Str × Str))
    (rest : List Str) (s : St) (hopt : ∀ p ∈ ps, IsOption p.1) (href : ∀ p ∈ ps, ¬ Refused s.world.fs p) (hstop : Stops rest) (hfuel : ps.length < fuel)
    (s1 : St) (hbegin : beginMeasurement (withXML X env) (started s ps) = (s1, .ok ())) :
    (∀ m, (runTalk (withXML X env) voice (test (prog :: rest)) s1).2.2 = .error (.thrown m) →
      (mainS X line why env voice thrown test fuel (prog :: (flat ps ++ rest)) s).1 =
        outputLines s.world.fs ps ++ baselineLines X line why s1 ++ (runTalk (withXML X env) voice (test (prog :: rest)) s1).1 ++ [caught (thrown (.thrown m))]) ∧
    (¬ Throws (runTalk (withXML X env) voice (test (prog :: rest)) s1).2.2 →
      (mainS X line why env voice thrown test fuel (prog :: (flat ps ++ rest)) s).1 =
        outputLines s.world.fs ps ++ baselineLines X line why s1 ++ (runTalk (withXML X env) voice (test (prog :: rest)) s1).1) := by
  obtain ⟨o0, ho0⟩ : ∃ o0 : Obj, o0 = { s.obj with unmatched := s.obj.unmatched + 1 } := ⟨_, rfl⟩
  have hm := C101_messages s.world.fs fuel o0 prog ps rest hopt href (.inl hstop) hfuel
  have hp := C35_options_removed s.world.fs fuel o0 prog ps rest hopt href hstop hfuel
  rw [← C101_same_parser] at hp
  rw [mainS, tryBlockS]
  simp only
  rw [← ho0, parseArgumentsE]
  rcases h : parseArgumentsM s.world.fs fuel o0 (prog :: (flat ps ++ rest)) with ⟨ms, o, f | out⟩
  · rw [h] at hp
    simp at hp
  · rw [h] at hp hm
    simp only [Prod.mk.injEq, Except.ok.injEq] at hp hm ⊢
    obtain ⟨hp1, rfl⟩ := hp
    have hs : ({ s with obj := o } : St) = started s ps := by rw [hp1, ho0]; rfl
    rw [hs, hm, begin_lines X line why env _ s1 hbegin]
    simp only
    rcases runTalk (withXML X env) voice (test (prog :: rest)) s1 with ⟨ms'', s2, f | ret⟩
    · cases f with
      | thrown m =>
        refine ⟨?_, fun hn => absurd ⟨m, rfl⟩ hn⟩
        intro m' hm'
        simp only [Except.error.injEq, Fault.thrown.injEq] at hm'
        subst hm'
        simp [outputLines]
      | _ => exact ⟨(fun m hm => by cases hm), fun _ => by simp [outputLines]⟩
    · exact ⟨(fun m hm => by cases hm), fun _ => by simp [outputLines]⟩

/-- **C119.** A run in which the test is not called, because the arguments are refused or a file cannot be opened or read, says what `Main` says (C112). -/
theorem C119_not_called (X : Expat) (line why : X.State → Str) (env : Env) (voice : ImageVoice) (thrown : Fault → Thrown) (test : List Str → Talk) (any : List Str → Prog) (fuel : Nat) (argv : List Str)
    (s : St) (hnot : ∀ o rest s1, parseArguments s.world.fs fuel { s.obj with unmatched := s.obj.unmatched + 1 } argv = (o, .ok rest) →
      beginMeasurement (withXML X env) { s with obj := o } ≠ (s1, .ok ())) :
    (mainS X line why env voice thrown test fuel argv s).1 = (mainE X line why env thrown any fuel argv s).1 := by
  obtain ⟨o0, ho0⟩ : ∃ o0 : Obj, o0 = { s.obj with unmatched := s.obj.unmatched + 1 } := ⟨_, rfl⟩
  rw [← ho0] at hnot
  rw [mainS, mainE, tryBlockS, tryBlockE]
  simp only
  rw [← ho0]
  have hq := C101_same_parser s.world.fs fuel o0 argv
  rw [parseArgumentsE]
  rcases h : parseArgumentsM s.world.fs fuel o0 argv with ⟨ms, o, f | out⟩
  · cases f <;> rfl
  · rw [h] at hq
    simp only at hq ⊢
    have hn := fun s1 => hnot o out s1 hq.symm
    have hf := beginMeasurementE_forget X line why env { s with obj := o }
    rcases hb : beginMeasurementE X line why { s with obj := o } with ⟨ms', s1, ⟨f, e⟩ | ⟨⟩⟩
    · cases f <;> rfl
    · rw [hb] at hf
      exact absurd hf (hn s1)

/-! ## Tests that measure one thing after the other -/

theorem words_inl (t : Str) (l : List (Str ⊕ Call)) : words (.inl t :: l) = t :: words l := rfl
theorem words_inr (c : Call) (l : List (Str ⊕ Call)) : words (.inr c :: l) = words l := rfl

/-- **C119.** While recording, a test that measures says what it writes itself, and nothing else. -/
theorem C119_recorded (env : Env) (voice : ImageVoice) (v : Int) : ∀ (l : List (Str ⊕ Call)) (s : St), s.obj.is = none → s.obj.inFileName = [] →
    (runTalk env voice (speech v l) s).1 = words l ∧ (runTalk env voice (speech v l) s).2.2 = .ok v := by
  intro l
  induction l with
  | nil => intro s _ _; exact ⟨rfl, rfl⟩
  | cons x l ih =>
    intro s h1 h2
    cases x with
    | inl t =>
      obtain ⟨e1, e2⟩ := ih s h1 h2
      rw [speech, runTalk, words_inl]
      simp only
      exact ⟨by rw [e1], e2⟩
    | inr c =>
      have hs := C119_recording env voice s c (recording s h1 h2)
      have hr := runCallS_snd env voice s c
      rw [runCall_record env s c h1 h2] at hr
      have hx : runCallS env voice s c = ([], s.emit (Regression.Spec.line (recordedMeas c)), .ok 0) := Prod.ext hs hr
      obtain ⟨e1, e2⟩ := ih (s.emit (Regression.Spec.line (recordedMeas c))) (by rw [emit_obj]; exact h1) (by rw [emit_obj]; exact h2)
      rw [speech, runTalk, words_inr, hx]
      simp only [List.nil_append]
      exact ⟨e1, e2⟩

/-- A text or number compared with an entry as it is recorded is compared in silence, whether it is the same or not. -/
theorem call_silent (env : Env) (voice : ImageVoice) (s : St) (c : Call) (hd : ∃ d, c.meas = .data d) (hp : ∀ b ∈ s.obj.input, Plain b) (hm : s.compareMode = true) :
    (runCallS env voice s c).1 = [] := by
  obtain ⟨d, hd⟩ := hd
  by_cases h : ∀ b rest, s.obj.input = b :: rest → ¬ (b.name = c.meas.name ∧ b.type = c.meas.type)
  · exact C119_unmatched env voice s c h
  · push Not at h
    obtain ⟨b, rest, hin, h1, h2⟩ := h
    rw [C119_call env voice s c b rest hm hin h1 h2 (by rintro ⟨-, -, -, g, hg⟩; rw [hd] at hg; cases hg)]
    split
    · rfl
    · have hb := hp b (by rw [hin]; simp)
      cases b with
      | file f => exact hb.elim
      | data b =>
        rw [hd]
        obtain ⟨b1, b2, b3⟩ := hb
        simp only [entryFor, pairLines, entryLines]
        have : readLines b = [] := by rw [readLines, if_pos b3, if_pos b2]; rfl
        rw [this]
        simp

/-- **C119.** While comparing texts and numbers with entries as they are recorded, a test says what it writes itself, and nothing else: that something differs, or that there is no entry for it, is never
reported on the error stream.  If an exception ends the test, it says no more. -/
theorem C119_compared (env : Env) (voice : ImageVoice) (v : Int) : ∀ (l : List (Str ⊕ Call)) (s : St) (bytes : Str), s.obj.is = some bytes → (∀ b ∈ s.obj.input, Plain b) →
    (∀ c ∈ calls l, ∃ d, c.meas = .data d) →
    (∃ k, (runTalk env voice (speech v l) s).1 = words (l.take k)) ∧
      ((∃ r, (runTalk env voice (speech v l) s).2.2 = .ok r) → (runTalk env voice (speech v l) s).1 = words l) := by
  intro l
  induction l with
  | nil => intro s b _ _ _; exact ⟨⟨0, rfl⟩, fun _ => rfl⟩
  | cons x l ih =>
    intro s bytes his hp hd
    cases x with
    | inl t =>
      obtain ⟨⟨k, e1⟩, e2⟩ := ih s bytes his hp (fun c hc => hd c (by simpa [calls] using hc))
      rw [speech, runTalk]
      simp only
      refine ⟨⟨k + 1, ?_⟩, ?_⟩
      · rw [List.take_succ_cons, words_inl, e1]
      · intro h
        rw [words_inl, e2 h]
    | inr c =>
      have hmode : s.compareMode = true := by simp [St.compareMode, his]
      have hs := call_silent env voice s c (hd c (by simp [calls])) hp hmode
      have hr := runCallS_snd env voice s c
      obtain ⟨i1, i2⟩ := runCall_input env s c bytes his
      rw [← hr] at i1 i2
      rw [speech, runTalk]
      rcases hx : runCallS env voice s c with ⟨ms, s', f | r⟩
      · rw [hx] at hs
        simp only at hs ⊢
        exact ⟨⟨0, by rw [hs]; rfl⟩, by rintro ⟨r, hr⟩; cases hr⟩
      · rw [hx] at hs i1 i2
        simp only at hs i1 i2 ⊢
        subst hs
        obtain ⟨⟨k, e1⟩, e2⟩ := ih s' bytes i2 (by intro b hb; rw [i1] at hb; exact hp b (List.mem_of_mem_drop hb)) (fun c hc => hd c (by
          simp only [calls, List.filterMap_cons] at hc ⊢
          exact List.mem_cons_of_mem _ hc))
        simp only [List.nil_append]
        refine ⟨⟨k + 1, ?_⟩, ?_⟩
        · rw [List.take_succ_cons, words_inr, e1]
        · intro h
          rw [words_inr, e2 h]

theorem recorded_plain (c : Call) (hd : ∃ d, c.meas = .data d) : Plain (recordedMeas c) := by
  obtain ⟨d, hd⟩ := hd
  have h := recorded_standard c
  have hr : recordedMeas c = .data d := by rw [recordedMeas, hd]
  rw [hr] at h ⊢
  exact ⟨h.2.2.2, h.1, h.2.1⟩

/-- **C119.** A test that is run with the recording of another test (or of itself) as the baseline, both measuring texts and numbers: whatever differs, the error stream of the run is what the test writes
itself; followed by one line if an exception ends the test. -/
theorem C119_differences (X : Expat) (line why : X.State → Str) (hX : Conforms X) (env : Env) (voice : ImageVoice) (thrown : Fault → Thrown) (fuel : Nat) (hfuel : 1 < fuel) (prog f : Str)
    (w0 w : World) (hw : Comment (commentText w0)) (cs : List Call) (hclean : ∀ c ∈ cs, Clean (recordedMeas c)) (hcs : ∀ c ∈ cs, ∃ d, c.meas = .data d)
    (hf : f ≠ []) (h1 : isFile w.fs f = true) (h2 : isReadable w.fs f = true)
    (h3 : w.openRead f = some (header w0 ++ (cs.map fun c => Regression.Spec.line (recordedMeas c)).flatten ++ footer))
    (v : Int) (l : List (Str ⊕ Call)) (hl : ∀ c ∈ calls l, ∃ d, c.meas = .data d) :
    (∃ k tail, (mainS X line why env voice thrown (fun _ => speech v l) fuel [prog, b!"-I", f] ⟨{}, w⟩).1 = words (l.take k) ++ tail ∧ (tail = [] ∨ ∃ e, tail = [caught (thrown e)])) ∧
    ∀ s1 r, beginMeasurement (withXML X env) (started ⟨{}, w⟩ [(b!"-I", f)]) = (s1, .ok ()) → (runProg (withXML X env) (speech v l).silent s1).2 = .ok r →
      (mainS X line why env voice thrown (fun _ => speech v l) fuel [prog, b!"-I", f] ⟨{}, w⟩).1 = words l := by
  have hread := read_recording X hX cs w0 hw hclean
  have hquiet := C100_recorded X line why hX w0 hw cs hclean
  obtain ⟨bytes, hbytes⟩ : ∃ b, b = header w0 ++ (cs.map fun c => Regression.Spec.line (recordedMeas c)).flatten ++ footer := ⟨_, rfl⟩
  rw [← hbytes] at h3 hread hquiet
  obtain ⟨hp, hb, -⟩ := compare_begin (withXML X env) fuel hfuel prog f w bytes hf h1 h2 h3 (cs.map recordedMeas) hread
  have hst : started ⟨{}, w⟩ [(b!"-I", f)] = ⟨{ unmatched := 0 + 1, inFileName := f }, w⟩ := rfl
  have hrun := C119_run X line why env voice thrown (fun _ => speech v l) fuel prog [(b!"-I", f)] [] ⟨{}, w⟩ (by simp [IsOption]) (by simp [Refused, h1, h2]) (by simp [Stops]) (by simpa using hfuel)
    _ (by rw [hst]; exact hb)
  have ho : outputLines w.fs [(b!"-I", f)] = [] := rfl
  have hbl : baselineLines X line why ⟨{ unmatched := 0 + 1, inFileName := f, is := some bytes, input := cs.map recordedMeas }, w⟩ = [] := by
    rw [baselineLines]
    simp only [hquiet]
  rw [hbl, ho] at hrun
  simp only [flat, List.append_nil, List.nil_append, List.cons_append] at hrun
  obtain ⟨⟨k, e1⟩, e2⟩ := C119_compared (withXML X env) voice v l ⟨{ unmatched := 0 + 1, inFileName := f, is := some bytes, input := cs.map recordedMeas }, w⟩ bytes rfl
    (by intro b hb; obtain ⟨c, hc, rfl⟩ := List.mem_map.mp hb; exact recorded_plain c (hcs c hc)) hl
  obtain ⟨r1, r2⟩ := hrun
  refine ⟨?_, ?_⟩
  · by_cases ht : Throws (runTalk (withXML X env) voice (speech v l) ⟨{ unmatched := 0 + 1, inFileName := f, is := some bytes, input := cs.map recordedMeas }, w⟩).2.2
    · obtain ⟨m, hm⟩ := ht
      exact ⟨k, [caught (thrown (.thrown m))], by rw [r1 m hm, e1], Or.inr ⟨_, rfl⟩⟩
    · exact ⟨k, [], by rw [r2 ht, e1]; simp, Or.inl rfl⟩
  · intro s1 r hs1 hr
    rw [hst, hb] at hs1
    simp only [Prod.mk.injEq, and_true] at hs1
    subst hs1
    rw [← runTalk_snd (withXML X env) voice] at hr
    rw [r2 (by rw [hr]; rintro ⟨m, hm⟩; cases hm)]
    exact e2 ⟨r, hr⟩

/-! ## Examples -/

def noVoice : ImageVoice := ⟨fun _ _ _ => [], fun _ _ _ _ => []⟩

/-- A world with a baseline "f" of the string "a" named "s", the number 1 named "i" and the file "h" named "t". -/
def stderrWorld : World :=
  { fs := ⟨fun n => if n = b!"f" then some .regular else none, fun _ => true, fun _ => true, fun _ => true⟩
    bytes := fun _ => header plainWorld ++ (([.textString b!"a" b!"s", .integer 1 b!"i" true, .fileTextPlain b!"h" b!"t"] : List Call).map fun c => Regression.Spec.line (recordedMeas c)).flatten ++ footer
    creatable := fun _ => true
    cout := [], host := [], time := [] }

def stderrTalk : Talk := speech 0 [.inl b!"one\n", .inr (.textString b!"b" b!"s"), .inl b!"two\n", .inr (.integer 2 b!"i" true), .inr (.fileTextPlain b!"g" b!"t"), .inl b!"three\n",
  .inr (.textString b!"c" b!"u")]

/-- Every measurement differs from its entry or has none; only the file that cannot be opened is reported, between what the test says. -/
example : (mainS reference (fun _ => b!"1") (fun _ => b!"why") (smallEnv []) noVoice errorThrown (fun _ => stderrTalk) 9 [b!"prog", b!"-I", b!"f"] ⟨{}, stderrWorld⟩).1 =
    [b!"one\n", b!"two\n", b!"error opening file \"h\".\n", b!"three\n"] := by decide +kernel

end Verif.Stderr
