import Verif.Xml.CrashSpec
import Verif.Xml.RunProps
import Verif.Xml.Reference

/-!
# Interrupted recordings: C96
-/

namespace Verif.Xml
open Verif.Measurement Verif.Measurement.Spec Verif.Regression Verif.Xml.Spec Verif.Regression.Spec Verif.Path

/-! ## The assumptions can be met -/

/-- What the reference parser does with bytes that lead neither to the end nor to an error. -/
theorem feeds_reference_open (init : List Str) (last : Str) : ∀ (s : Mode × List Str),
    (bytes s (init.flatten ++ last)).1.1 ≠ .done → (bytes s (init.flatten ++ last)).1.1 ≠ .bad →
    feeds reference s (init.map (fun c => (c, false)) ++ [(last, true)]) = ((bytes s (init.flatten ++ last)).2, false) := by
  induction init with
  | nil =>
    intro s h _
    have h : (bytes s last).1.1 ≠ .done := by simpa using h
    simp [feeds, reference, h]
  | cons c init ih =>
    intro s h hb
    rw [List.flatten_cons, List.append_assoc, bytes_append] at h hb ⊢
    have hnb : (bytes s c).1.1 ≠ .bad := by
      intro hc
      rcases hs : (bytes s c).1 with ⟨m, st⟩
      rw [hs] at hc hb
      simp only at hc
      subst hc
      rw [bytes_bad] at hb
      exact hb rfl
    have := ih (bytes s c).1 h hb
    rw [List.map_cons, List.cons_append, feeds.eq_2]
    simp [hnb, this]

theorem flagged_bytes {init : List Str} {last p : Str} (h : bytesOf (init.map (fun c => (c, false)) ++ [(last, true)]) = p) :
    init.flatten ++ last = p := by
  rw [← h, bytesOf, List.map_append, List.map_map]
  simp [Function.comp_def]

theorem reference_rejects_truncated : RejectsTruncated reference := by
  rintro s es p q hd rfl hq chunks ⟨init, last, rfl⟩ hbytes
  have hb := flagged_bytes hbytes
  have hdoc := bytes_document _ es hd
  rw [bytes_append] at hdoc
  have h1 : (bytes (bytes reference.init p).1 q).1 = (.done, []) := congrArg Prod.fst hdoc
  have h2 : (bytes reference.init p).2 ++ (bytes (bytes reference.init p).1 q).2 = es := congrArg Prod.snd hdoc
  have hnb : (bytes reference.init p).1.1 ≠ .bad := by
    intro hc
    rcases hs : (bytes reference.init p).1 with ⟨m, st⟩
    rw [hs] at hc h1
    simp only at hc
    subst hc
    rw [bytes_bad] at h1
    cases h1
  have hnd : (bytes reference.init p).1.1 ≠ .done := by
    intro hc
    rcases hs : (bytes reference.init p).1 with ⟨m, st⟩
    rw [hs] at hc h1
    simp only at hc
    subst hc
    cases q with
    | nil => simp at hq
    | cons x q => simp [bytes, byte, bytes_bad] at h1
  rw [← hb] at hnb hnd h2
  rw [feeds_reference_open init last _ hnd hnb]
  exact ⟨rfl, _, ⟨_, h2⟩, rfl⟩

/-- Unfinished content leaves the reference parser within content. -/
theorem bytes_unfinished (s : Str) (es : List Event) (h : Unfinished s es) : ∀ top st,
    ∃ st', bytes (.content, top :: st) s = ((.content, st'), es) := by
  induction h with
  | here s es hc => intro top st; exact ⟨_, bytes_content s es hc top st⟩
  | inside s es n as l r es' hc hn ha _ ih =>
    intro top st
    have h1 := bytes_content s es hc top st
    have h2 : bytes (.content, top :: st) b!"<" = ((.tag, top :: st), []) := by simp [bytes, byte]
    have h3 := bytes_startTag (top :: st) n as l hn ha
    obtain ⟨st', h4⟩ := ih n (top :: st)
    have := bytes_trans (bytes_trans (bytes_trans h1 h2) h3) h4
    exact ⟨st', by simpa [List.append_assoc] using this⟩

theorem reference_rejects_unfinished : RejectsUnfinished reference := by
  rintro c n as l body bes hc hn has hb chunks ⟨init, last, rfl⟩ hbytes
  have hbb := flagged_bytes hbytes
  have h1 : bytes reference.init (declaration ++ b!"\n<!--") = ((.comment 0, []), []) := bytes_prolog [] _ (by decide)
  obtain ⟨h', _, h2, hz⟩ := bytes_comment [] c 0 (by omega) hc.1 hc.2.1 (by simp)
  have hz : h' = 0 := by
    rw [hz]
    cases c with
    | nil => simp
    | cons x c => exact Or.inr ⟨by simp, hc.2.2⟩
  subst hz
  have h3 : bytes (.comment 0, []) b!"-->\n<" = ((.tag, []), []) := by simp [bytes, byte]
  have h4 := bytes_startTag [] n as l hn has
  obtain ⟨st', h5⟩ := bytes_unfinished body bes hb n []
  have := bytes_trans (bytes_trans (bytes_trans (bytes_trans h1 h2) h3) h4) h5
  have : bytes reference.init (init.flatten ++ last) = ((.content, st'), .start n l :: bes) := by
    rw [hbb]
    simpa [List.append_assoc] using this
  rw [feeds_reference_open init last _ (by rw [this]; simp) (by rw [this]; simp), this]
  exact ⟨rfl, rfl⟩

/-! ## What a killed recording leaves -/

theorem keeps_killed (os : Option Str) (p : Prog) : ∀ n, Keeps os p → Keeps os (killedAfter n p) := by
  induction p with
  | ret v => intro n h; cases n <;> exact h
  | fails f => intro n h; cases n <;> trivial
  | call c k ih => intro n h; cases n with
    | zero => trivial
    | succ n => exact fun r => ih r n (h r)
  | look k ih => intro n h; cases n with
    | zero => trivial
    | succ n => exact fun r => ih r n (h r)
  | ask k ih => intro n h; cases n with
    | zero => trivial
    | succ n => exact fun r => ih r n (h r)
  | act f k ih => intro n h; cases n with
    | zero => trivial
    | succ n => exact ⟨h.1, ih n h.2⟩
  | setInFileName f k ih => intro n h; cases n with
    | zero => trivial
    | succ n => exact ⟨h.1, ih n h.2⟩
  | setTolerance t k ih => intro n h; cases n with
    | zero => trivial
    | succ n => exact ih n h
  | setExpected t k ih => intro n h; cases n with
    | zero => trivial
    | succ n => exact ih n h
  | setImageTolerance t k ih => intro n h; cases n with
    | zero => trivial
    | succ n => exact ih n h
  | setSearchPath t k ih => intro n h; cases n with
    | zero => trivial
    | succ n => exact ih n h
  | prependSearchPath t k ih => intro n h; cases n with
    | zero => trivial
    | succ n => exact ih n h
  | setOutFileName t k ih => intro n h; cases n with
    | zero => trivial
    | succ n => exact ih n h

theorem observed_killed (env : Env) (p : Prog) : ∀ (n : Nat) (s : St), observed env (killedAfter n p) s <+: observed env p s := by
  induction p with
  | ret v => intro n s; cases n <;> simp [killedAfter, observed]
  | fails f => intro n s; cases n <;> simp [killedAfter, observed]
  | call c k ih => intro n s; cases n with
    | zero => simp [killedAfter, observed]
    | succ n =>
      simp only [killedAfter, observed]
      refine List.cons_prefix_cons.mpr ⟨rfl, ?_⟩
      rcases runCall env s c with ⟨s', f | r⟩
      · simp
      · exact ih r n s'
  | act f k ih => intro n s; cases n with
    | zero => simp [killedAfter, observed]
    | succ n => exact ih n _
  | look k ih => intro n s; cases n with
    | zero => simp [killedAfter, observed]
    | succ n => exact ih _ n _
  | ask k ih => intro n s; cases n with
    | zero => simp [killedAfter, observed]
    | succ n => exact ih _ n _
  | setTolerance t k ih => intro n s; cases n with
    | zero => simp [killedAfter, observed]
    | succ n => exact ih n _
  | setExpected t k ih => intro n s; cases n with
    | zero => simp [killedAfter, observed]
    | succ n => exact ih n _
  | setImageTolerance t k ih => intro n s; cases n with
    | zero => simp [killedAfter, observed]
    | succ n => exact ih n _
  | setSearchPath t k ih => intro n s; cases n with
    | zero => simp [killedAfter, observed]
    | succ n => exact ih n _
  | prependSearchPath t k ih => intro n s; cases n with
    | zero => simp [killedAfter, observed]
    | succ n => exact ih n _
  | setInFileName t k ih => intro n s; cases n with
    | zero => simp [killedAfter, observed]
    | succ n => exact ih n _
  | setOutFileName t k ih => intro n s; cases n with
    | zero => simp [killedAfter, observed]
    | succ n => exact ih n _

/-- Measurements printed one per line, as texts. -/
theorem printed_lines : ∀ cs : List Call, ∃ texts : List Str, List.Forall₂ (fun m t => m.print = .ok t) (cs.map recordedMeas) texts ∧
    texts.flatMap (· ++ b!"\n") = (cs.map fun c => line (recordedMeas c)).flatten
  | [] => ⟨[], .nil, rfl⟩
  | c :: cs => by
    obtain ⟨t, h1, h2⟩ := recorded_print c
    obtain ⟨ts, h3, h4⟩ := printed_lines cs
    exact ⟨t :: ts, .cons h1 h3, by rw [List.flatMap_cons, h4, h2]; simp⟩

/-- **C96.** A recording killed at any moment: the output file holds the header and one whole line for each measurement made so far, in
order; it is a beginning of the file the recording leaves when it is not killed, which has more. -/
theorem C96_killed_recording (env : Env) (test : List Str → Prog) (fuel : Nat) (argv : List Str) (s : St) (o : Obj) (rest : List Str)
    (hparse : parseArguments s.world.fs fuel { s.obj with unmatched := s.obj.unmatched + 1 } argv = (o, .ok rest))
    (h1 : o.is = none) (h2 : o.inFileName = []) (h3 : o.outFileName ≠ []) (h4 : s.world.creatable (cstr o.outFileName) = true)
    (hk : Keeps (some o.outFileName) (test rest)) :
    ∃ s1, beginMeasurement env ⟨o, s.world⟩ = (s1, .ok ()) ∧ ∀ n,
      (runProg env (killedAfter n (test rest)) s1).1.world.bytes (cstr o.outFileName) =
        header s.world ++ (observed env (killedAfter n (test rest)) s1).flatMap (fun x => line (recordedMeas x.call)) ∧
      observed env (killedAfter n (test rest)) s1 <+: observed env (test rest) s1 ∧
      (∀ v, (runProg env (test rest) s1).2 = .ok v → ∃ q, 2 ≤ q.length ∧
        (main env test fuel argv s).1.world.bytes (cstr o.outFileName) =
          (runProg env (killedAfter n (test rest)) s1).1.world.bytes (cstr o.outFileName) ++ q) := by
  obtain ⟨s1, hb, hfull, _⟩ := C41_recorded_document env test fuel argv s o rest hparse h1 h2 h3 h4 hk
  refine ⟨s1, hb, fun n => ?_⟩
  obtain ⟨w', hw, hb', hbytes⟩ := begin_record env ⟨o, s.world⟩ h1 h2 h3 h4
  rw [hb] at hb'
  injection hb' with hs1 _
  simp only at hbytes
  have ho1 : s1.obj = { o with os := some o.outFileName } := by rw [hs1, emit_obj]
  have hb1 : written (some o.outFileName) s1.world = header s.world := by
    have := written_emit ⟨{ o with os := some o.outFileName }, w'⟩ (header s.world)
    rw [hs1]
    simpa [written, hbytes] using this
  have hos : s1.obj.os = some o.outFileName := by rw [ho1]
  have hl := (C41_record_lines env (killedAfter n (test rest)) s1 (by rw [ho1]; exact h1) (by rw [ho1]; exact h2)
    (by rw [hos]; exact keeps_killed _ _ n hk)).1
  rw [hos, hb1] at hl
  have hl : (runProg env (killedAfter n (test rest)) s1).1.world.bytes (cstr o.outFileName) =
    header s.world ++ (observed env (killedAfter n (test rest)) s1).flatMap (fun x => line (recordedMeas x.call)) := hl
  obtain ⟨t, ht⟩ := observed_killed env (test rest) n s1
  refine ⟨hl, ⟨t, ht⟩, fun v hv => ?_⟩
  refine ⟨t.flatMap (fun x => line (recordedMeas x.call)) ++ footer, by rw [List.length_append]; simp [footer], ?_⟩
  rw [hfull v hv, hl, ← ht]
  simp [List.append_assoc]

/-! ## Reading it -/

/-- A recorded document is a document. -/
theorem recording_document (w : World) (hw : Comment (commentText w)) (cs : List Call) (hclean : ∀ c ∈ cs, Clean (recordedMeas c)) :
    Document (header w ++ (cs.map fun c => line (recordedMeas c)).flatten ++ footer)
      (.start b!"output" [] :: (letters b!"\n" ++ lines (cs.map recordedMeas)) ++ [.stop b!"output"]) := by
  obtain ⟨texts, h1, h2⟩ := printed_lines cs
  have hnl : Content b!"\n" (letters b!"\n") := .char 10 _ _ (by decide) .nil
  have hc := content_lines (cs.map recordedMeas) texts h1 (by intro m hm; obtain ⟨c, hc, rfl⟩ := List.mem_map.mp hm; exact hclean c hc)
  rw [h2] at hc
  refine ⟨commentText w, b!"output", [], [], _, _, hw, name_output, .nil, hnl.append hc, ?_, rfl⟩
  rw [header_eq]
  simp [List.append_assoc]

/-- The callbacks of a recorded document are all in order. -/
theorem recording_events (cs : List Call) (hclean : ∀ c ∈ cs, Clean (recordedMeas c)) :
    onEvents {} (.start b!"output" [] :: (letters b!"\n" ++ lines (cs.map recordedMeas))) =
      .ok { depth := 1, measurements := cs.map recordedMeas } := by
  have h0 : onStart {} b!"output" [] = .ok { depth := 1 } := rfl
  rw [onEvents]
  simp only [onEvent, h0]
  rw [onEvents_append, onEvents_letters_ignored _ _ (by simp)]
  simp only
  rw [onEvents_lines _ _ (by intro m hm; obtain ⟨c, hc, rfl⟩ := List.mem_map.mp hm; exact hclean c hc) rfl rfl rfl]
  simp

/-- **C96.** A recording of which at least two bytes are missing at the end, wherever it was cut, is never read as a baseline: there is an
exception, or the assertion that no measurement is unfinished stops the program. -/
theorem C96_truncated_never_read (X : Expat) (hX : RejectsTruncated X) (w : World) (hw : Comment (commentText w)) (cs : List Call)
    (hclean : ∀ c ∈ cs, Clean (recordedMeas c)) (p q : Str) (hq : 2 ≤ q.length)
    (hpq : header w ++ (cs.map fun c => line (recordedMeas c)).flatten ++ footer = p ++ q) :
    readXML X p = .error (.thrown "parse error") ∨ readXML X p = .error (.assertFail "!m") := by
  obtain ⟨chunks, hb, hf, _, hr⟩ := C42_chunks_are_the_file p
  obtain ⟨h1, es1, ⟨es2, h2⟩, h3⟩ := hX _ _ p q (recording_document w hw cs hclean) hpq hq chunks hf hb
  have hall : ∃ pd, onEvents {} (es1 ++ es2) = .ok pd := by
    rw [h2, onEvents_append, recording_events cs hclean]
    exact ⟨_, rfl⟩
  obtain ⟨pd, hall⟩ := hall
  rw [onEvents_append] at hall
  rcases h4 : onEvents {} es1 with f | pd1
  · rw [h4] at hall; cases hall
  · rw [hr, C43_text_splits _ _ _ h3, h4, h1]
    simp only [leave, Bool.false_eq_true, if_false]
    split
    · exact Or.inr rfl
    · exact Or.inl rfl

/-- **C96.** What a recording leaves that was killed, or ended by an exception, is read as no baseline: there is an exception. -/
theorem C96_killed_never_read (X : Expat) (hX : RejectsUnfinished X) (w : World) (hw : Comment (commentText w)) (cs : List Call)
    (hclean : ∀ c ∈ cs, Clean (recordedMeas c)) :
    readXML X (header w ++ (cs.map fun c => line (recordedMeas c)).flatten) = .error (.thrown "parse error") := by
  obtain ⟨texts, ht1, ht2⟩ := printed_lines cs
  have hnl : Content b!"\n" (letters b!"\n") := .char 10 _ _ (by decide) .nil
  have hc := content_lines (cs.map recordedMeas) texts ht1 (by intro m hm; obtain ⟨c, hc, rfl⟩ := List.mem_map.mp hm; exact hclean c hc)
  rw [ht2] at hc
  obtain ⟨chunks, hb, hf, _, hr⟩ := C42_chunks_are_the_file (header w ++ (cs.map fun c => line (recordedMeas c)).flatten)
  obtain ⟨h1, h3⟩ := hX _ _ _ _ _ _ hw name_output .nil (.here _ _ (hnl.append hc)) chunks hf (by
    rw [hb]; simp [header, commentText, declaration, List.append_assoc])
  rw [hr, C43_text_splits _ _ _ h3, recording_events cs hclean, h1]
  rfl

theorem opening_eq (c : Call) : opening (recordedMeas c) = (recordedMeas c).startTag := by
  have hs := recorded_standard c
  revert hs
  cases recordedMeas c with
  | file f => intro _; rfl
  | data d =>
    rintro ⟨h1, h2, _⟩
    simp [opening, Meas.startTag, Meas.element, Meas.name, Meas.type, h1, h2]

/-- **C96, negative.** A recording cut within the content of a measurement brings the program down that reads it: the assertion that no
measurement is unfinished fails while the exception is on its way. -/
theorem C96_cut_in_content_aborts (X : Expat) (hX : RejectsUnfinished X) (w : World) (hw : Comment (commentText w)) (cs : List Call)
    (hclean : ∀ c ∈ cs, Clean (recordedMeas c)) (c : Call) (hc : Clean (recordedMeas c)) (j : Nat) :
    readXML X (header w ++ (cs.map fun c => line (recordedMeas c)).flatten ++
      opening (recordedMeas c) ++ ((recordedMeas c).content.take j).flatMap xmlChar) = .error (.assertFail "!m") := by
  obtain ⟨texts, ht1, ht2⟩ := printed_lines cs
  have hnl : Content b!"\n" (letters b!"\n") := .char 10 _ _ (by decide) .nil
  have hbody := content_lines (cs.map recordedMeas) texts ht1 (by intro m hm; obtain ⟨c, hc, rfl⟩ := List.mem_map.mp hm; exact hclean c hc)
  rw [ht2] at hbody
  obtain ⟨as, has, htag⟩ := startTag_attrs _ hc
  have hprint : ∀ x ∈ (recordedMeas c).content.take j, Printable x := by
    intro x hx
    have hx := List.mem_of_mem_take hx
    revert hc hx
    cases recordedMeas c with
    | data d => intro hc hx; exact hc.2.2.2.1 x hx
    | file f => intro hc hx; exact hc.2.2.1 x hx
  obtain ⟨chunks, hb, hf, _, hr⟩ := C42_chunks_are_the_file (header w ++ (cs.map fun c => line (recordedMeas c)).flatten ++
      opening (recordedMeas c) ++ ((recordedMeas c).content.take j).flatMap xmlChar)
  obtain ⟨h1, h3⟩ := hX _ _ _ _ _ _ hw name_output .nil
    (.inside _ _ _ _ _ _ _ (hnl.append hbody) (element_name (recordedMeas c)) has (.here _ _ (content_escaped _ hprint))) chunks hf (by
    rw [hb, opening_eq, htag]; simp [header, commentText, declaration, List.append_assoc])
  rw [hr, C43_text_splits _ _ _ h3, h1]
  have h5 := recording_events cs hclean
  rw [← List.cons_append, onEvents_append, h5]
  simp only [onEvents, onEvent]
  obtain ⟨m', e, _⟩ := onStart_clean { depth := 1, measurements := cs.map recordedMeas } (recordedMeas c) hc rfl rfl rfl
  rw [e]
  simp only
  rw [onEvents_letters _ _ rfl]
  rfl

/-- Two clean measurements. -/
def twoCalls : List Call := [.textString b!"a<b" b!"s", .textString b!"c" b!"t"]

theorem two_clean : ∀ c ∈ twoCalls, Clean (recordedMeas c) := by
  simp only [twoCalls, List.mem_cons, List.not_mem_nil, or_false, forall_eq_or_imp, forall_eq]
  exact ⟨⟨by decide, by decide, by decide, by decide, rfl, rfl⟩, ⟨by decide, by decide, by decide, by decide, rfl, rfl⟩⟩

/-- The hypotheses are met: a recording of two measurements, killed after the first, after a part of the second, and within a tag. -/
example : readXML reference (header plainWorld ++ b!"<DartMeasurement name=\"s\" type=\"text/string\">a&lt;b</DartMeasurement>\n") =
    .error (.thrown "parse error") :=
  C96_killed_never_read reference reference_rejects_unfinished plainWorld plain_comment [.textString b!"a<b" b!"s"]
    (fun c hc => two_clean c (by simp only [List.mem_singleton] at hc; simp [twoCalls, hc]))

example : readXML reference (header plainWorld ++ b!"<DartMeasurement name=\"s\" type=\"text/string\">a&lt;") = .error (.assertFail "!m") :=
  C96_cut_in_content_aborts reference reference_rejects_unfinished plainWorld plain_comment [] (by simp) (.textString b!"a<b" b!"s")
    (two_clean _ (by simp [twoCalls])) 2

example : readXML reference (header plainWorld ++ b!"<DartMeasurement name=\"s\" type=\"text/str") = .error (.thrown "parse error") ∨
    readXML reference (header plainWorld ++ b!"<DartMeasurement name=\"s\" type=\"text/str") = .error (.assertFail "!m") :=
  C96_truncated_never_read reference reference_rejects_truncated plainWorld plain_comment twoCalls two_clean _
    (b!"ing\">a&lt;b</DartMeasurement>\n<DartMeasurement name=\"t\" type=\"text/string\">c</DartMeasurement>\n" ++ footer) (by decide)
    (by decide +kernel)

/-- A killed recording of two measurements, from a command line. -/
example : ∃ s1, beginMeasurement (smallEnv []) ⟨{ unmatched := 1, outFileName := b!"f" }, plainWorld⟩ = (s1, .ok ()) ∧
    (runProg (smallEnv []) (killedAfter 1 (straight 0 twoCalls)) s1).1.world.bytes b!"f" =
      header plainWorld ++ b!"<DartMeasurement name=\"s\" type=\"text/string\">a&lt;b</DartMeasurement>\n" := by
  obtain ⟨s1, h1, h2⟩ := C96_killed_recording (smallEnv []) (fun _ => straight 0 twoCalls) 3 [b!"prog", b!"-O", b!"f"] ⟨{}, plainWorld⟩
    { unmatched := 1, outFileName := b!"f" } [b!"prog"] (by rfl) rfl rfl (by decide) rfl (keeps_straight _ _ _)
  refine ⟨s1, h1, ?_⟩
  rw [show b!"f" = cstr b!"f" from rfl, (h2 1).1]
  have : (observed (smallEnv []) (killedAfter 1 (straight 0 twoCalls)) s1).map (·.call) = [.textString b!"a<b" b!"s"] := by
    simp only [twoCalls, straight, killedAfter, observed]
    split <;> rfl
  rw [show (observed (smallEnv []) (killedAfter 1 (straight 0 twoCalls)) s1).flatMap (fun x => line (recordedMeas x.call)) =
    ((observed (smallEnv []) (killedAfter 1 (straight 0 twoCalls)) s1).map (·.call)).flatMap (fun c => line (recordedMeas c)) by
      rw [List.flatMap_map], this]
  decide +kernel

/-! ## Using it as a baseline -/

/-- **C96.** `Main` with a cut recording as baseline: the test is not run, and `Main` does not return 0: it returns -1, or, if -1 is what is
expected, a positive count, or the assertion stops the program.  (The object has counted no negative number of failures.) -/
theorem C96_truncated_baseline_fails (X : Expat) (hX : RejectsTruncated X) (env : Env) (test : List Str → Prog) (fuel : Nat) (argv : List Str)
    (s : St) (o : Obj) (rest : List Str)
    (hparse : parseArguments s.world.fs fuel { s.obj with unmatched := s.obj.unmatched + 1 } argv = (o, .ok rest))
    (hin : o.inFileName ≠ []) (hout : o.outFileName = []) (hcount : 0 < o.unmatched)
    (w : World) (hw : Comment (commentText w)) (cs : List Call) (hclean : ∀ c ∈ cs, Clean (recordedMeas c)) (p q : Str) (hq : 2 ≤ q.length)
    (hpq : header w ++ (cs.map fun c => line (recordedMeas c)).flatten ++ footer = p ++ q)
    (hopen : s.world.openRead (if searchPathList s.world.fs o.inFileName o.searchPath = [] then o.inFileName
      else searchPathList s.world.fs o.inFileName o.searchPath) = some p) :
    ((main (withXML X env) test fuel argv s).2 = .ok (if o.expected = -1 then o.unmatched else -1) ∨
      (main (withXML X env) test fuel argv s).2 = .error (.assertFail "!m")) ∧
    (main (withXML X env) test fuel argv s).2 ≠ .ok 0 ∧
    (main (withXML X env) test fuel argv s).1.world = s.world ∧
    (∀ test', main (withXML X env) test' fuel argv s = main (withXML X env) test fuel argv s) := by
  have hread := C96_truncated_never_read X hX w hw cs hclean p q hq hpq
  have hbegin : ∀ f, readXML X p = .error f → beginMeasurement (withXML X env) ⟨o, s.world⟩ = (⟨{ o with is := some p }, s.world⟩, .error f) := by
    intro f hf
    have ho : openInput ⟨o, s.world⟩ = (⟨{ o with is := some p }, s.world⟩, .ok ()) := by
      simp only [openInput, Obj.searched]
      rw [if_pos hin]
      by_cases he : searchPathList s.world.fs o.inFileName o.searchPath = []
      · rw [if_pos he] at hopen
        simp only [he, if_true, hopen]
      · rw [if_neg he] at hopen
        simp only [he, if_false, hopen]
    have h0 : openOutput ⟨o, s.world⟩ = (⟨o, s.world⟩, .ok ()) := by simp [openOutput, hout]
    rw [beginMeasurement, h0]
    simp only [Res.andThen, ho]
    simp [startOrRead, St.compareMode, withXML, hf]
  rcases hread with hf | hf
  · have hb := hbegin _ hf
    have hm : ∀ t, main (withXML X env) t fuel argv s =
        (⟨{ o with is := some p }, s.world⟩, .ok (if o.expected = -1 then o.unmatched else -1)) := by
      intro t
      simp only [main, tryBlock, hparse, hb, mainValue]
      by_cases he : o.expected = -1
      · simp [he, St.compareMode]
      · simp [he, Ne.symm he]
    refine ⟨Or.inl (by rw [hm]), ?_, by rw [hm], fun t => by rw [hm, hm]⟩
    rw [hm]
    simp only [ne_eq, Except.ok.injEq]
    split <;> omega
  · have hb := hbegin _ hf
    have hm : ∀ t, main (withXML X env) t fuel argv s = (⟨{ o with is := some p }, s.world⟩, .error (.assertFail "!m")) := by
      intro t
      simp only [main, tryBlock, hparse, hb]
    exact ⟨Or.inr (by rw [hm]), by rw [hm]; simp, by rw [hm], fun t => by rw [hm, hm]⟩

/-- **C96.** A recording is interrupted at any moment and the file it leaves is then given as the baseline to any test: `Main` returns -1 and
the test is not run. -/
theorem C96_interrupted_then_compared (X : Expat) (hX : RejectsUnfinished X) (env : Env) (test test' : List Str → Prog) (fuel : Nat)
    (hfuel : 1 < fuel) (prog f : Str) (w : World) (hw : Comment (commentText w)) (hf : f ≠ []) (hcreate : w.creatable (cstr f) = true)
    (hnew : ¬ (isFile w.fs f = true ∧ isWritable w.fs f = false)) (hk : Keeps (some f) (test [prog])) :
    ∃ s1, parseArguments w.fs fuel { unmatched := 1 } [prog, b!"-O", f] = ({ unmatched := 1, outFileName := f }, .ok [prog]) ∧
      beginMeasurement (withXML X env) ⟨{ unmatched := 1, outFileName := f }, w⟩ = (s1, .ok ()) ∧
      ∀ n w1, (runProg (withXML X env) (killedAfter n (test [prog])) s1).1.world = w1 →
        (∀ x ∈ observed (withXML X env) (killedAfter n (test [prog])) s1, Clean (recordedMeas x.call)) →
        isFile w1.fs f = true → isReadable w1.fs f = true →
        main (withXML X env) test' fuel [prog, b!"-I", f] ⟨{}, w1⟩ =
          (⟨{ unmatched := 1, inFileName := f, is := some (w1.bytes (cstr f)) }, w1⟩, .ok (-1)) := by
  have hparse : parseArguments w.fs fuel { unmatched := 0 + 1 } [prog, b!"-O", f] = ({ unmatched := 0 + 1, outFileName := f }, .ok [prog]) := by
    have := C35_options_removed w.fs fuel { unmatched := 0 + 1 } prog [(b!"-O", f)] [] (by simp [IsOption])
      (by simp [Refused]) (by simp [Stops]) (by simpa using hfuel)
    rw [flat] at this
    simp only [flat, List.append_nil] at this
    rw [this]
    have e1 : lastValue b!"-R" [(b!"-O", f)] = none := by simp [lastValue]
    have e2 : lastValue b!"-I" [(b!"-O", f)] = none := by simp [lastValue]
    have e3 : lastValue b!"-O" [(b!"-O", f)] = some f := by simp [lastValue]
    have e4 : values b!"-P" [(b!"-O", f)] = [] := by simp [values]
    rw [e1, e2, e3, e4]
    simp [hnew]
  obtain ⟨s1, hb, hall⟩ := C96_killed_recording (withXML X env) test fuel [prog, b!"-O", f] ⟨{}, w⟩ _ _ hparse rfl rfl hf hcreate hk
  refine ⟨s1, hparse, hb, ?_⟩
  · rintro n w1 rfl hclean h1 h2
    generalize hw1 : (runProg (withXML X env) (killedAfter n (test [prog])) s1).1.world = w1 at h1 h2 ⊢
    have hbytes := (hall n).1
    simp only [hw1] at hbytes
    have hread : readXML X (w1.bytes (cstr f)) = .error (.thrown "parse error") := by
      have := C96_killed_never_read X hX w hw ((observed (withXML X env) (killedAfter n (test [prog])) s1).map (·.call)) (by
        intro c hc
        obtain ⟨x, hx, rfl⟩ := List.mem_map.mp hc
        exact hclean x hx)
      rw [List.map_map, ← List.flatMap_def] at this
      rw [hbytes]
      exact this
    have hp : parseArguments w1.fs fuel { unmatched := 0 + 1 } [prog, b!"-I", f] = ({ unmatched := 0 + 1, inFileName := f }, .ok [prog]) := by
      have := C35_options_removed w1.fs fuel { unmatched := 0 + 1 } prog [(b!"-I", f)] [] (by simp [IsOption])
        (by simp [Refused, h1, h2]) (by simp [Stops]) (by simpa using hfuel)
      rw [flat] at this
      simp only [flat, List.append_nil] at this
      rw [this]
      have e1 : lastValue b!"-R" [(b!"-I", f)] = none := by simp [lastValue]
      have e2 : lastValue b!"-I" [(b!"-I", f)] = some f := by simp [lastValue]
      have e3 : lastValue b!"-O" [(b!"-I", f)] = none := by simp [lastValue]
      have e4 : values b!"-P" [(b!"-I", f)] = [] := by simp [values]
      rw [e1, e2, e3, e4]
      simp
    have hopen : w1.openRead f = some (w1.bytes (cstr f)) := by
      simp only [isFile, isReadable] at h1 h2
      rw [World.openRead, if_pos]
      simp_all
    have hsp : searchPathList w1.fs f [] = [] := rfl
    have hbeg : beginMeasurement (withXML X env) ⟨{ unmatched := 0 + 1, inFileName := f }, w1⟩ =
        (⟨{ unmatched := 1, inFileName := f, is := some (w1.bytes (cstr f)) }, w1⟩, .error (.thrown "parse error")) := by
      simp [beginMeasurement, openOutput, Res.andThen, openInput, hf, Obj.searched, hsp, hopen, startOrRead, St.compareMode, withXML, hread]
    simp only [main, tryBlock, hp, hbeg, mainValue]
    simp

/-- The hypotheses are met: by a baseline cut within a tag, and a test that would return 0. -/
example (w : World) (hfs : w.fs = smallWorld.fs)
    (hb : w.bytes b!"b" = header plainWorld ++ b!"<DartMeasurement name=\"s\" type=\"text/str") :
    (main (withXML reference (smallEnv [])) (fun _ => .ret 0) 9 withBaseline ⟨{}, w⟩).2 ≠ .ok 0 :=
  (C96_truncated_baseline_fails reference reference_rejects_truncated (smallEnv []) (fun _ => .ret 0) 9 withBaseline ⟨{}, w⟩ _ _
    (by rw [show (⟨{}, w⟩ : St).world.fs = smallWorld.fs from hfs]; exact parse_small 1) (by decide) rfl (by decide) plainWorld plain_comment
    twoCalls two_clean (header plainWorld ++ b!"<DartMeasurement name=\"s\" type=\"text/str")
    (b!"ing\">a&lt;b</DartMeasurement>\n<DartMeasurement name=\"t\" type=\"text/string\">c</DartMeasurement>\n" ++ footer) (by decide)
    (by decide +kernel) (by
      show w.openRead _ = _
      rw [if_pos (show searchPathList w.fs b!"b" [] = [] from rfl), World.openRead, if_pos, ← hb]
      · rfl
      · rw [hfs]; decide)).2.1

end Verif.Xml
