import Verif.Xml.Reference
import Verif.Measurement.Props

/-!
# Reading a baseline: C26, C42, C43, C76 - C79
-/

set_option linter.unusedSimpArgs false

namespace Verif.Xml
open Verif.Measurement Verif.Measurement.Spec Verif.Regression Spec

/-! ## C42: the chunks -/

/-- The chunks a file is read in. -/
def chunked : Nat → Str → List (Str × Bool)
  | 0, rest => [(rest, true)]
  | n + 1, rest => if rest.length < 1024 then [(rest, true)] else (rest.take 1024, false) :: chunked n (rest.drop 1024)

theorem chunked_bytes : ∀ n rest, bytesOf (chunked n rest) = rest
  | 0, rest => by simp [chunked, bytesOf]
  | n + 1, rest => by
    rw [chunked]
    split
    · simp [bytesOf]
    · have := chunked_bytes n (rest.drop 1024)
      simp only [bytesOf, List.map_cons, List.flatten_cons] at this ⊢
      rw [this, List.take_append_drop]

theorem chunked_flagged : ∀ n rest, Flagged (chunked n rest)
  | 0, rest => ⟨[], rest, rfl⟩
  | n + 1, rest => by
    rw [chunked]
    split
    · exact ⟨[], rest, rfl⟩
    · obtain ⟨init, last, h⟩ := chunked_flagged n (rest.drop 1024)
      exact ⟨rest.take 1024 :: init, last, by rw [h]; rfl⟩

theorem chunked_small : ∀ n rest, rest.length < 1024 * (n + 1) → ∀ p ∈ chunked n rest, p.1.length ≤ 1024
  | 0, rest, h => by simp [chunked]; omega
  | n + 1, rest, h => by
    rw [chunked]
    split
    · simp; omega
    · intro p hp
      rcases List.mem_cons.mp hp with rfl | hp
      · simp
      · exact chunked_small n _ (by rw [List.length_drop]; omega) p hp

theorem onEvents_append (pd : ParseData) (a b : List Event) :
    onEvents pd (a ++ b) = match onEvents pd a with | .error f => .error f | .ok pd => onEvents pd b := by
  induction a generalizing pd with
  | nil => rfl
  | cons e a ih =>
    simp only [List.cons_append, onEvents]
    cases onEvent pd e with
    | error f => rfl
    | ok pd' => exact ih pd'

/-- What the reader does with the callbacks of a whole document, and whether all of it parsed. -/
def conclude (r : List Event × Bool) (pd : ParseData) : Except Fault (List Meas) :=
  match onEvents pd r.1 with
  | .error f => .error f
  | .ok pd => leave pd (if r.2 then .ok pd.measurements else .error (.thrown "parse error"))

theorem feeds_cons (X : Expat) (st : X.State) (c : Str) (f : Bool) (cs : List (Str × Bool)) :
    feeds X st ((c, f) :: cs) = if (X.feed st c f).2.2 = true then
      ((X.feed st c f).2.1 ++ (feeds X (X.feed st c f).1 cs).1, (feeds X (X.feed st c f).1 cs).2)
      else ((X.feed st c f).2.1, false) := by
  rw [feeds]
  rcases X.feed st c f with ⟨st', es, _ | _⟩ <;> simp

theorem readLoop_succ (X : Expat) (size fuel : Nat) (rest : Str) (st : X.State) (pd : ParseData) :
    readLoop X size (fuel + 1) rest st pd =
      if (rest.take 1024).length < (if decide (rest.length < 1024) then size % 1024 else 1024) then
        .error (.ub "bytes that were not read")
      else
        let r := X.feed st ((rest.take 1024).take (if decide (rest.length < 1024) then size % 1024 else 1024)) (decide (rest.length < 1024))
        match onEvents pd r.2.1 with
        | .error f => .error f
        | .ok pd => if r.2.2 then
            if decide (rest.length < 1024) then leave pd (.ok pd.measurements) else readLoop X size fuel (rest.drop 1024) r.1 pd
          else leave pd (.error (.thrown "parse error")) := rfl

theorem readLoop_chunked (X : Expat) (size : Nat) : ∀ (n : Nat) (rest : Str) (st : X.State) (pd : ParseData),
    rest.length / 1024 = n → size % 1024 = rest.length % 1024 →
    readLoop X size (n + 1) rest st pd = conclude (feeds X st (chunked n rest)) pd := by
  intro n
  induction n with
  | zero =>
    intro rest st pd hn hs
    have hlt : rest.length < 1024 := by omega
    rw [readLoop_succ]
    have h1 : size % 1024 = rest.length := by omega
    have h2 : rest.take 1024 = rest := List.take_of_length_le (by omega)
    simp only [hlt, decide_true, if_true, h1, h2, Nat.lt_irrefl, if_false, List.take_length, conclude]
    rcases hq : X.feed st rest true with ⟨st', es, ok⟩
    rw [chunked, feeds_cons, hq]
    cases ok <;> simp [feeds]
  | succ n ih =>
    intro rest st pd hn hs
    have hge : ¬ rest.length < 1024 := by omega
    rw [readLoop_succ]
    have h3 : (rest.take 1024).length = 1024 := by rw [List.length_take]; omega
    simp only [hge, decide_false, Bool.false_eq_true, if_false, h3, Nat.lt_irrefl]
    have h2 : (rest.take 1024).take 1024 = rest.take 1024 := List.take_of_length_le (by omega)
    rw [h2]
    rcases hq : X.feed st (rest.take 1024) false with ⟨st', es, ok⟩
    rw [chunked, if_neg hge, feeds_cons, hq]
    cases ok with
    | false => simp [conclude]
    | true =>
      simp only [conclude, onEvents_append, if_true]
      cases onEvents pd es with
      | error f => rfl
      | ok pd' =>
        simp only
        rw [ih _ st' pd' (by rw [List.length_drop]; omega) (by rw [List.length_drop]; omega), conclude]

/-- **C42.** The parser is given exactly the bytes of the file, in order, in chunks of at most 1024, the last one and only the last one
flagged as the last, whatever the size of the file; the measurements are those its callbacks make. -/
theorem C42_chunks_are_the_file (bytes : Str) :
    ∃ chunks : List (Str × Bool), bytesOf chunks = bytes ∧ Flagged chunks ∧ (∀ p ∈ chunks, p.1.length ≤ 1024) ∧
      ∀ X : Expat, readXML X bytes = match onEvents {} (feeds X X.init chunks).1 with
        | .error f => .error f
        | .ok pd => leave pd (if (feeds X X.init chunks).2 then .ok pd.measurements else .error (.thrown "parse error")) :=
  ⟨chunked (bytes.length / 1024) bytes, chunked_bytes _ _, chunked_flagged _ _, chunked_small _ _ (by omega),
    fun X => readLoop_chunked X _ _ _ _ _ rfl rfl⟩

/-- A file whose size is a multiple of 1024 is followed by an empty last chunk. -/
example : chunked (2048 / 1024) (List.replicate 2048 65) = [(List.replicate 1024 65, false), (List.replicate 1024 65, false), ([], true)] := by
  decide +kernel

/-! ## C43: splitting of text -/

theorem onText_onText (pd : ParseData) (s t : Str) : onText (onText pd s) t = onText pd (s ++ t) := by
  simp only [onText]
  by_cases h : pd.depth = 2 <;> simp [h]

theorem onText_nil (pd : ParseData) : onText pd [] = pd := by
  rw [onText]
  split
  · rw [List.append_nil]
  · rfl

theorem onEvents_canon (pd : ParseData) (es : List Event) : onEvents pd (canon es) = onEvents pd es := by
  induction es generalizing pd with
  | nil => rfl
  | cons e es ih =>
    cases e with
    | start el l =>
      simp only [canon, onEvents]
      cases onEvent pd (.start el l) with
      | error f => rfl
      | ok pd' => exact ih pd'
    | stop el =>
      simp only [canon, onEvents]
      cases onEvent pd (.stop el) with
      | error f => rfl
      | ok pd' => exact ih pd'
    | text s =>
      have hr : onEvents pd (.text s :: es) = onEvents (onText pd s) (canon es) := by
        rw [ih]; rfl
      rw [hr, canon]
      split
      · next t r hc =>
        simp only [hc, onEvents, onEvent, onText_onText]
      · next r hc =>
        split
        · next hs => rw [hs, onText_nil]
        · rfl

/-- **C43.** What is read does not depend on how the parser cuts character data into callbacks: two sequences of callbacks that are the
same once text in a row is joined have the same effect, in every state. -/
theorem C43_text_splits (pd : ParseData) (es es' : List Event) (h : canon es = canon es') : onEvents pd es = onEvents pd es' := by
  rw [← onEvents_canon pd es, h, onEvents_canon]

/-- **C43.** Two parsers that differ only in how they cut text give the same result for every file. -/
theorem C43_reading (X X' : Expat) (bytes : Str)
    (h : ∀ chunks, Flagged chunks → bytesOf chunks = bytes →
      canon (feeds X X.init chunks).1 = canon (feeds X' X'.init chunks).1 ∧ (feeds X X.init chunks).2 = (feeds X' X'.init chunks).2) :
    readXML X bytes = readXML X' bytes := by
  obtain ⟨chunks, hb, hf, _, hX⟩ := C42_chunks_are_the_file bytes
  obtain ⟨h1, h2⟩ := h chunks hf hb
  rw [hX, hX, C43_text_splits _ _ _ h1, h2]

/-- Text cut in two, and empty text, make no difference. -/
example : canon [.start b!"a" [], .text b!"x", .text [], .text b!"y", .stop b!"a"] =
    canon [.text [], .start b!"a" [], .text b!"xy", .stop b!"a"] := by decide

/-! ## Reading a document -/

/-- A document of the grammar is read as its callbacks say. -/
theorem readXML_document (X : Expat) (hX : Conforms X) (s : Str) (es : List Event) (h : Document s es) :
    readXML X s = match onEvents {} es with
      | .error f => .error f
      | .ok pd => leave pd (.ok pd.measurements) := by
  obtain ⟨chunks, hb, hf, _, hr⟩ := C42_chunks_are_the_file s
  obtain ⟨h1, h2⟩ := hX s es h chunks hf hb
  rw [hr, C43_text_splits _ _ _ h1, h2]
  rfl

theorem _root_.Verif.Xml.Spec.Content.append {a b : Str} {ea eb : List Event} (ha : Content a ea) (hb : Content b eb) : Content (a ++ b) (ea ++ eb) := by
  induction ha with
  | nil => exact hb
  | char c r es hc _ ih => exact .char c _ _ hc ih
  | crlf r es _ ih => exact .crlf _ _ ih
  | amp r es _ ih => exact .amp _ _ ih
  | lt r es _ ih => exact .lt _ _ ih
  | gt r es _ ih => exact .gt _ _ ih
  | element n as l body es r es' hn has hbody _ _ ih =>
    have := Content.element n as l body es _ _ hn has hbody ih
    simpa [List.append_assoc] using this

/-- One callback for each character. -/
def letters (s : Str) : List Event := s.map fun c => .text [c]

theorem content_escaped (s : Str) (h : ∀ c ∈ s, Printable c) : Content (s.flatMap xmlChar) (letters s) := by
  induction s with
  | nil => exact .nil
  | cons c s ih =>
    have ih := ih fun x hx => h x (by simp [hx])
    simp only [List.flatMap_cons, letters, List.map_cons, xmlChar] at ih ⊢
    by_cases h1 : c = 38
    · subst h1; exact .amp _ _ ih
    · by_cases h2 : c = 60
      · subst h2; exact .lt _ _ ih
      · by_cases h3 : c = 62
        · subst h3; exact .gt _ _ ih
        · simp only [h1, h2, h3, if_false]
          exact .char c _ _ ⟨h c (by simp), h1, h2, h3⟩ ih

theorem attrValue_chars (s : Str) (h : ∀ c ∈ s, AttrChar c) : AttrValue s s := by
  induction s with
  | nil => exact .nil
  | cons c s ih => exact .char c _ _ (h c (by simp)) (ih fun x hx => h x (by simp [hx]))

/-- Text callbacks at depth 2 collect their text. -/
theorem onEvents_letters (s : Str) : ∀ (pd : ParseData), pd.depth = 2 → onEvents pd (letters s) = .ok { pd with data := pd.data ++ s } := by
  induction s with
  | nil => intro pd _; simp [letters, onEvents]
  | cons c s ih =>
    intro pd h
    simp only [letters, List.map_cons, onEvents, onEvent, onText, if_pos h]
    have := ih { pd with data := pd.data ++ [c] } h
    simp only [letters] at this
    rw [this]
    simp

/-- Text callbacks at another depth do nothing. -/
theorem onEvents_letters_ignored (s : Str) (pd : ParseData) (h : pd.depth ≠ 2) : onEvents pd (letters s) = .ok pd := by
  induction s with
  | nil => rfl
  | cons c s ih =>
    simp only [letters, List.map_cons, onEvents, onEvent, onText, if_neg h]
    exact ih

/-! ## C26: measurements read back -/

/-- The attributes a measurement is printed with. -/
def attrsOf : Meas → List (Str × Str)
  | .file f => [(b!"name", f.name), (b!"type", f.type)]
  | .data d => [(b!"name", d.name), (b!"type", d.kind.typeName)] ++
      (if d.encoding ≠ b!"none" then [(b!"encoding", d.encoding)] else []) ++
      (if d.compression ≠ b!"none" then [(b!"compression", d.compression)] else [])

theorem typeName_chars (k : Measurement.Kind) : ∀ c ∈ k.typeName, AttrChar c := by
  rcases k with _ | _ | (_ | _ | _ | _) <;> decide

theorem create_typeName (k : Measurement.Kind) : createDataMeasurement k.typeName = some { kind := k } := by
  rcases k with _ | _ | (_ | _ | _ | _) <;> decide

theorem element_name (m : Meas) : Name m.element := by
  cases m
  · exact (by decide : Name b!"DartMeasurement")
  · exact (by decide : Name b!"DartMeasurementFile")

theorem startTag_attrs (m : Meas) (h : Clean m) : ∃ as, Attrs as (attrsOf m) ∧ m.startTag = b!"<" ++ m.element ++ as ++ b!">" := by
  have n1 : Name b!"name" := by decide
  have n2 : Name b!"type" := by decide
  have n3 : Name b!"encoding" := by decide
  have n4 : Name b!"compression" := by decide
  cases m with
  | file f =>
    obtain ⟨h1, h2, _⟩ := h
    refine ⟨_, .cons _ _ _ _ _ n1 (attrValue_chars _ h1) (.cons _ _ _ _ _ n2 (attrValue_chars _ h2) .nil (by simp)) (by simp), ?_⟩
    simp [Meas.startTag, List.append_assoc]
  | data d =>
    obtain ⟨h1, h2, h3, _⟩ := h
    have a1 := attrValue_chars _ h1
    have a2 := attrValue_chars _ (typeName_chars d.kind)
    have a3 := attrValue_chars _ h2
    have a4 := attrValue_chars _ h3
    by_cases he : d.encoding = b!"none" <;> by_cases hc : d.compression = b!"none" <;>
      simp only [attrsOf, Meas.startTag, he, hc, ne_eq, not_true_eq_false, not_false_eq_true, if_true, if_false, List.append_nil,
        List.cons_append, List.nil_append]
    · refine ⟨_, .cons _ _ _ _ _ n1 a1 (.cons _ _ _ _ _ n2 a2 .nil (by simp)) (by simp), ?_⟩
      simp [List.append_assoc]
    · refine ⟨_, .cons _ _ _ _ _ n1 a1 (.cons _ _ _ _ _ n2 a2 (.cons _ _ _ _ _ n4 a4 .nil (by simp)) (by simp)) (by simp), ?_⟩
      simp [List.append_assoc]
    · refine ⟨_, .cons _ _ _ _ _ n1 a1 (.cons _ _ _ _ _ n2 a2 (.cons _ _ _ _ _ n3 a3 .nil (by simp)) (by simp)) (by simp), ?_⟩
      simp [List.append_assoc]
    · refine ⟨_, .cons _ _ _ _ _ n1 a1 (.cons _ _ _ _ _ n2 a2 (.cons _ _ _ _ _ n3 a3 (.cons _ _ _ _ _ n4 a4 .nil (by simp))
        (by simp)) (by simp)) (by simp), ?_⟩
      simp [List.append_assoc]

/-- The callbacks for a measurement. -/
def eventsOf (m : Meas) : List Event := .start m.element (attrsOf m) :: letters m.content ++ [.stop m.element]

theorem print_content (m : Meas) (t : Str) (h : Clean m) (hp : m.print = .ok t) : Content t (eventsOf m) := by
  obtain ⟨as, has, e⟩ := startTag_attrs m h
  have hc : ∀ c ∈ m.content, Printable c := by
    cases m with
    | file f => exact h.2.2.1
    | data d => exact h.2.2.2.1
  have hesc : m.escape = true := by
    cases m with
    | file f => exact h.2.2.2
    | data d => exact h.2.2.2.2.1
  simp only [Meas.print, Meas.printContent, hesc, if_true, C25_escape_exact, bind, Except.bind, pure, Except.pure, Except.ok.injEq] at hp
  subst hp
  have := Content.element m.element as (attrsOf m) _ _ [] [] (element_name m) has (content_escaped m.content hc) .nil
  rw [e, Meas.endTag]
  simpa [eventsOf, List.append_assoc] using this

theorem onStart_clean (pd : ParseData) (m : Meas) (h : Clean m) (hd : pd.depth = 1) (hm : pd.m = none) (hdata : pd.data = []) :
    ∃ m', onStart pd m.element (attrsOf m) = .ok { pd with m := some m', depth := 2 } ∧ setContent m.content m' = m := by
  rw [onStart, hm, hdata, hd]
  cases m with
  | file f =>
    refine ⟨.file { f with fileName := [] }, ?_, rfl⟩
    have hesc := h.2.2.2
    cases f with | mk a b c d => subst hesc; rfl
  | data d =>
    refine ⟨.data { d with content := [] }, ?_, ?_⟩
    · obtain ⟨_, _, _, _, hesc, hn⟩ := h
      have hc : createLoop (attrsOf (.data d)) none = some { kind := d.kind } := by
        simp only [attrsOf]
        by_cases he : d.encoding = b!"none" <;> by_cases hc : d.compression = b!"none" <;>
          simp [he, hc, createLoop, create_typeName]
      have ha : dataAttributes (attrsOf (.data d)) (some { kind := d.kind }) = .ok (some { d with content := [] }) := by
        obtain ⟨k, nm, ct, en, cp, es, dt⟩ := d
        simp only at hesc hn
        subst hesc; subst hn
        simp only [attrsOf]
        by_cases he : en = b!"none" <;> by_cases hc : cp = b!"none" <;>
          simp [he, hc, dataAttributes, DataM.setEncoding, DataM.setCompression]
      simp [hc, ha, Meas.element]
    · obtain ⟨_, _, _, _, hesc, hn⟩ := h
      obtain ⟨k, nm, ct, en, cp, es, dt⟩ := d
      simp only at hesc hn
      subst hn
      rfl

theorem onEvents_clean (pd : ParseData) (m : Meas) (h : Clean m) (hd : pd.depth = 1) (hm : pd.m = none) (hdata : pd.data = []) :
    onEvents pd (eventsOf m) = .ok { pd with measurements := pd.measurements ++ [m] } := by
  obtain ⟨m', e, hs⟩ := onStart_clean pd m h hd hm hdata
  obtain ⟨dp, dt, mm, ms⟩ := pd
  simp only at hd hm hdata
  subst hd; subst hm; subst hdata
  rw [eventsOf, List.cons_append, onEvents]
  simp only [onEvent, e]
  rw [onEvents_append, onEvents_letters _ _ rfl]
  simp [onEvents, onEvent, onEnd, hs]

/-- The callbacks for the lines of the measurements. -/
def lines (ms : List Meas) : List Event := ms.flatMap fun m => eventsOf m ++ letters b!"\n"

theorem content_lines (ms : List Meas) (texts : List Str) (h : List.Forall₂ (fun m t => m.print = .ok t) ms texts)
    (hc : ∀ m ∈ ms, Clean m) : Content (texts.flatMap (· ++ b!"\n")) (lines ms) := by
  induction h with
  | nil => exact .nil
  | @cons m t ms texts hp _ ih =>
    have hnl : Content b!"\n" (letters b!"\n") := .char 10 _ _ (by decide) .nil
    exact ((print_content m t (hc m (by simp)) hp).append hnl).append (ih fun x hx => hc x (by simp [hx]))

theorem onEvents_lines (ms : List Meas) : ∀ (pd : ParseData), (∀ m ∈ ms, Clean m) → pd.depth = 1 → pd.m = none → pd.data = [] →
    onEvents pd (lines ms) = .ok { pd with measurements := pd.measurements ++ ms } := by
  induction ms with
  | nil => intro pd _ _ _ _; simp [lines, onEvents]
  | cons m ms ih =>
    intro pd hc hd hm hdata
    rw [lines, List.flatMap_cons, onEvents_append, onEvents_append, onEvents_clean pd m (hc m (by simp)) hd hm hdata]
    simp only
    rw [onEvents_letters_ignored _ _ (by simp [hd])]
    have := ih { pd with measurements := pd.measurements ++ [m] } (fun x hx => hc x (by simp [hx])) hd hm hdata
    rw [lines] at this
    simp only
    rw [this]
    simp

/-- The text of the comment in a recorded document. -/
def commentText (w : World) : Str := b!" created on " ++ cstr w.host ++ b!" at " ++ w.time ++ b!" "

/-- What a document with header, footer and this body is read as. -/
theorem readXML_body (X : Expat) (hX : Conforms X) (w : World) (hw : Comment (commentText w)) (n : Str) (hn : Name n) (body : Str)
    (es : List Event) (h : Content body es) :
    readXML X (declaration ++ b!"\n<!--" ++ commentText w ++ b!"-->\n<" ++ n ++ b!">\n" ++ body ++ b!"</" ++ n ++ b!">\n") =
      match onEvents { depth := 1 } es with
      | .error f => .error f
      | .ok pd => .ok (onEnd pd).measurements := by
  have hnl : Content b!"\n" (letters b!"\n") := .char 10 _ _ (by decide) .nil
  have hdoc : Document (declaration ++ b!"\n<!--" ++ commentText w ++ b!"-->\n<" ++ n ++ b!">\n" ++ body ++ b!"</" ++ n ++ b!">\n")
      (.start n [] :: (letters b!"\n" ++ es) ++ [.stop n]) := by
    refine ⟨commentText w, n, [], [], _, _, hw, hn, .nil, hnl.append h, ?_, rfl⟩
    simp [List.append_assoc]
  rw [readXML_document X hX _ _ hdoc]
  have h0 : onStart {} n [] = .ok { depth := 1 } := rfl
  rw [List.cons_append, onEvents]
  simp only [onEvent, h0]
  rw [onEvents_append, onEvents_append, onEvents_letters_ignored _ _ (by simp)]
  simp only
  cases onEvents { depth := 1 } es with
  | error f => rfl
  | ok pd => simp [onEvents, onEvent, onEnd, leave]

theorem header_eq (w : World) (body : Str) : header w ++ body ++ footer =
    declaration ++ b!"\n<!--" ++ commentText w ++ b!"-->\n<" ++ b!"output" ++ b!">\n" ++ body ++ b!"</" ++ b!"output" ++ b!">\n" := by
  simp [header, footer, commentText, declaration, List.append_assoc]

theorem name_output : Name b!"output" := by decide

/-- **C26.** A recorded document reads back: what measurements with clean names and content print of themselves, between the header and the
footer, is read as exactly these measurements, in this order. -/
theorem C26_reads_back (X : Expat) (hX : Conforms X) (w : World) (hw : Comment (commentText w)) (ms : List Meas) (texts : List Str)
    (h : List.Forall₂ (fun m t => m.print = .ok t) ms texts) (hc : ∀ m ∈ ms, Clean m) :
    readXML X (header w ++ texts.flatMap (· ++ b!"\n") ++ footer) = .ok ms := by
  rw [header_eq, readXML_body X hX w hw _ name_output _ _ (content_lines ms texts h hc), onEvents_lines ms _ hc rfl rfl rfl]
  simp [onEnd]

/-- A world whose comment is well formed. -/
def plainWorld : World where
  fs := ⟨fun _ => none, fun _ => true, fun _ => true, fun _ => true⟩
  bytes := fun _ => []
  creatable := fun _ => true
  cout := []
  host := b!"host"
  time := b!"Thu Jan  1 00:00:00 1970\n"

/-- No two hyphens in a row, decided. -/
def noDouble : Str → Bool
  | 45 :: 45 :: _ => false
  | _ :: r => noDouble r
  | [] => true

theorem noDouble_spec : ∀ c : Str, noDouble c = true → ∀ a b, c ≠ a ++ b!"--" ++ b := by
  intro c
  induction c with
  | nil => intro _ a b h; simp at h
  | cons x c ih =>
    intro h a b e
    cases a with
    | nil =>
      simp only [List.nil_append, List.cons_append, List.cons.injEq] at e
      obtain ⟨rfl, rfl⟩ := e
      simp [noDouble] at h
    | cons y a =>
      simp only [List.cons_append, List.cons.injEq] at e
      refine ih ?_ a b (by simpa using e.2)
      rw [noDouble.eq_def] at h
      split at h
      · cases h
      · next he => cases he; exact h
      · next he => cases he

theorem plain_comment : Comment (commentText plainWorld) := ⟨by decide, noDouble_spec _ (by decide), by decide⟩

/-- The hypotheses of C26 are met, by a parser that exists, and for measurements with markup in their content. -/
example : readXML reference (header plainWorld ++
    (b!"<DartMeasurement name=\"a b\" type=\"text/string\">1 &lt; 2\n</DartMeasurement>" ++ b!"\n") ++ footer) =
    .ok [.data { kind := .string, name := b!"a b", content := b!"1 < 2\n" }] := by
  have := C26_reads_back reference reference_conforms plainWorld plain_comment
    [.data { kind := .string, name := b!"a b", content := b!"1 < 2\n" }]
    [b!"<DartMeasurement name=\"a b\" type=\"text/string\">1 &lt; 2\n</DartMeasurement>"] (by
      refine .cons ?_ .nil
      simp only [Meas.print, Meas.printContent, Meas.escape, Meas.content, if_true, C25_escape_exact]
      rfl) (by
      intro m hm
      simp only [List.mem_singleton] at hm
      subst hm
      exact ⟨by decide, by decide, by decide, by decide, rfl, rfl⟩)
  simpa using this

/-- **C26, negative.** Text with the line ends of another system does not read back: "\r\n" becomes "\n", as XML prescribes. -/
theorem C26_line_ends (X : Expat) (hX : Conforms X) (w : World) (hw : Comment (commentText w)) (k : Kind) (name a b : Str)
    (hn : ∀ c ∈ name, AttrChar c) (ha : ∀ c ∈ a, Printable c) (hb : ∀ c ∈ b, Printable c) :
    ∃ t, (Meas.data { kind := k, name := name, content := a ++ b!"\r\n" ++ b }).print = .ok t ∧
      readXML X (header w ++ (t ++ b!"\n") ++ footer) = .ok [.data { kind := k, name := name, content := a ++ b!"\n" ++ b }] := by
  refine ⟨b!"<" ++ b!"DartMeasurement" ++ (b!" " ++ b!"name" ++ b!"=\"" ++ name ++ b!"\"" ++ (b!" " ++ b!"type" ++ b!"=\"" ++
    k.typeName ++ b!"\"" ++ [])) ++ b!">" ++ (a.flatMap xmlChar ++ (13 :: 10 :: b.flatMap xmlChar)) ++ b!"</" ++
    b!"DartMeasurement" ++ b!">", ?_, ?_⟩
  · simp only [Meas.print, Meas.printContent, Meas.escape, Meas.content, if_true, C25_escape_exact, bind, Except.bind, pure, Except.pure,
      Meas.startTag, Meas.endTag, Meas.element, List.flatMap_append]
    simp [List.append_assoc, xmlChar]
  · have hel := Content.element b!"DartMeasurement" _ _ _ _ _ _ (by decide)
      (.cons b!"name" _ _ _ _ (by decide) (attrValue_chars name hn)
        (.cons b!"type" _ _ _ _ (by decide) (attrValue_chars k.typeName (typeName_chars k)) .nil (by simp)) (by simp))
      ((content_escaped a ha).append (.crlf _ _ (content_escaped b hb))) (.char 10 [] [] (by decide) .nil)
    rw [header_eq, readXML_body X hX w hw _ name_output _ _ hel]
    have hs : onStart { depth := 1 } b!"DartMeasurement" [(b!"name", name), (b!"type", k.typeName)] =
        .ok { depth := 2, m := some (.data { kind := k, name := name }) } := by
      rcases k with _ | _ | (_ | _ | _ | _) <;> rfl
    rw [List.cons_append, onEvents]
    simp only [onEvent, hs]
    rw [onEvents_append, onEvents_append, onEvents_letters _ _ rfl]
    simp only [onEvents, onEvent, onText, if_true]
    rw [onEvents_letters _ _ rfl]
    simp [onEvents, onEvent, onEnd, setContent, DataM.setContent, onText]

/-! ## C76: the host name -/

theorem first_double : ∀ s : Str, (∃ a b, s = a ++ b!"--" ++ b) → ∃ a b, s = a ++ b!"--" ++ b ∧ ∀ x y, a ≠ x ++ b!"--" ++ y := by
  intro s
  induction s with
  | nil => rintro ⟨a, b, h⟩; simp at h
  | cons c s ih =>
    rintro ⟨a, b, h⟩
    by_cases h0 : ∃ r, c :: s = b!"--" ++ r
    · obtain ⟨r, hr⟩ := h0
      exact ⟨[], r, hr, by intro x y h; simp at h⟩
    · cases a with
      | nil => exact absurd ⟨b, by simpa using h⟩ h0
      | cons d a =>
        simp only [List.cons_append, List.cons.injEq] at h
        obtain ⟨a', b', e, hno⟩ := ih ⟨a, b, by simpa using h.2⟩
        refine ⟨c :: a', b', by rw [e]; simp, ?_⟩
        intro x y hx
        cases x with
        | nil =>
          simp only [List.nil_append, List.cons_append, List.cons.injEq] at hx
          refine h0 ⟨y ++ b!"--" ++ b', ?_⟩
          rw [e, hx.1, hx.2]; simp
        | cons z x =>
          simp only [List.cons_append, List.cons.injEq] at hx
          exact hno x y (by simpa using hx.2)

theorem no_double_before (p c : Str) (hp : 45 ∉ p) (hc : ∀ x y, c ≠ x ++ b!"--" ++ y) : ∀ x y, p ++ c ≠ x ++ b!"--" ++ y := by
  induction p with
  | nil => simpa using hc
  | cons d p ih =>
    intro x y h
    cases x with
    | nil =>
      simp only [List.nil_append, List.cons_append, List.cons.injEq] at h
      exact hp (by rw [h.1]; simp)
    | cons z x =>
      simp only [List.cons_append, List.cons.injEq] at h
      exact ih (fun h' => hp (by simp [h'])) x y (by simpa using h.2)

/-- **C76, negative.** A baseline recorded on a host whose name has two hyphens in a row (as every internationalised domain name has)
cannot be read: the host name is put into an XML comment. -/
theorem C76_host_name_hyphens (X : Expat) (hX : RejectsDoubleHyphen X) (w : World) (body : Str)
    (hw : ∀ c ∈ cstr w.host, Printable c ∧ c ≠ 62) (hh : ∃ a b, cstr w.host = a ++ b!"--" ++ b) :
    readXML X (header w ++ body ++ footer) = .error (.thrown "parse error") := by
  obtain ⟨a, b, e, hno⟩ := first_double _ hh
  obtain ⟨chunks, hb, hf, _, hr⟩ := C42_chunks_are_the_file (header w ++ body ++ footer)
  have hp : ∀ x ∈ b!" created on " ++ a, Printable x := by
    intro x hx
    rcases List.mem_append.mp hx with hx | hx
    · exact (by decide : ∀ x ∈ b!" created on ", Printable x) x hx
    · exact (hw x (by rw [e]; simp [hx])).1
  have hd : ∃ d rest, d ≠ 62 ∧ header w ++ body ++ footer = declaration ++ b!"\n<!--" ++ (b!" created on " ++ a) ++ b!"--" ++ d :: rest := by
    cases b with
    | nil =>
      refine ⟨32, b!"at " ++ w.time ++ b!" -->\n" ++ b!"<output>\n" ++ body ++ footer, by decide, ?_⟩
      rw [header, e]
      simp [declaration, List.append_assoc]
    | cons d b =>
      refine ⟨d, b ++ b!" at " ++ w.time ++ b!" -->\n" ++ b!"<output>\n" ++ body ++ footer, (hw d (by rw [e]; simp)).2, ?_⟩
      rw [header, e]
      simp [declaration, List.append_assoc]
  obtain ⟨d, rest, hd, hs⟩ := hd
  have := hX _ d rest chunks hp (no_double_before _ a (by decide) hno) hd hf (by rw [hb, hs])
  rw [hr, this]
  rfl

/-- Such a host name, and a parser that rejects the comment. -/
example : readXML reference (header { plainWorld with host := b!"xn--caf-dma.example" } ++ [] ++ footer) = .error (.thrown "parse error") :=
  C76_host_name_hyphens reference reference_rejects _ _ (by decide) ⟨b!"xn", b!"caf-dma.example", rfl⟩

/-! ## C77, C78: documents that bring the reader down -/

/-- The callbacks of measurements and then more. -/
theorem onEvents_after (ms : List Meas) (hc : ∀ m ∈ ms, Clean m) (es : List Event) :
    onEvents { depth := 1 } (lines ms ++ es) = onEvents { depth := 1, measurements := ms } es := by
  rw [onEvents_append, onEvents_lines ms _ hc rfl rfl rfl]
  simp

theorem createLoop_untyped (l : List (Str × Str)) (h : ∀ p ∈ l, p.1 ≠ b!"type") (d : Option DataM) : createLoop l d = d := by
  induction l with
  | nil => rfl
  | cons p l ih =>
    obtain ⟨a, v⟩ := p
    rw [createLoop, if_neg (h (a, v) (by simp)), ih fun q hq => h q (by simp [hq])]

theorem dataAttributes_null (l : List (Str × Str)) (h : ∃ p ∈ l, p.1 = b!"name" ∨ p.1 = b!"encoding" ∨ p.1 = b!"compression") :
    IsUB (dataAttributes l none) := by
  induction l with
  | nil => obtain ⟨p, hp, _⟩ := h; simp at hp
  | cons q l ih =>
    obtain ⟨a, v⟩ := q
    rw [dataAttributes]
    by_cases h1 : a = b!"name"
    · rw [if_pos h1]; exact ⟨_, rfl⟩
    · rw [if_neg h1]
      by_cases h2 : a = b!"type"
      · rw [if_pos h2]
        apply ih
        obtain ⟨p, hp, ho⟩ := h
        rcases List.mem_cons.mp hp with rfl | hp
        · subst h2; simp at ho
        · exact ⟨p, hp, ho⟩
      · rw [if_neg h2]
        by_cases h3 : a = b!"encoding"
        · rw [if_pos h3]; exact ⟨_, rfl⟩
        · rw [if_neg h3]
          by_cases h4 : a = b!"compression"
          · rw [if_pos h4]; exact ⟨_, rfl⟩
          · rw [if_neg h4]
            apply ih
            obtain ⟨p, hp, ho⟩ := h
            rcases List.mem_cons.mp hp with rfl | hp
            · rcases ho with h' | h' | h' <;> contradiction
            · exact ⟨p, hp, ho⟩

/-- **C77, negative.** A well-formed baseline in which a `DartMeasurement` has a name (or an encoding or compression) but no type makes the
reader call a method through a null pointer, whatever precedes and follows it. -/
theorem C77_missing_type_is_ub (X : Expat) (hX : Conforms X) (w : World) (hw : Comment (commentText w)) (ms : List Meas) (texts : List Str)
    (h : List.Forall₂ (fun m t => m.print = .ok t) ms texts) (hc : ∀ m ∈ ms, Clean m)
    (as : Str) (l : List (Str × Str)) (has : Attrs as l) (hno : ∀ p ∈ l, p.1 ≠ b!"type")
    (hsome : ∃ p ∈ l, p.1 = b!"name" ∨ p.1 = b!"encoding" ∨ p.1 = b!"compression")
    (body rest : Str) (ebody erest : List Event) (hbody : Content body ebody) (hrest : Content rest erest) :
    IsUB (readXML X (header w ++ (texts.flatMap (· ++ b!"\n") ++
      (b!"<" ++ b!"DartMeasurement" ++ as ++ b!">" ++ body ++ b!"</" ++ b!"DartMeasurement" ++ b!">" ++ rest)) ++ footer)) := by
  have hel := Content.element b!"DartMeasurement" as l body ebody rest erest (by decide) has hbody hrest
  rw [header_eq, readXML_body X hX w hw _ name_output _ _ ((content_lines ms texts h hc).append hel), onEvents_after ms hc]
  obtain ⟨why, hu⟩ := dataAttributes_null l hsome
  have hs : onStart { depth := 1, measurements := ms } b!"DartMeasurement" l = .error (.ub why) := by
    simp [onStart, createLoop_untyped l hno, hu]
  rw [List.cons_append, onEvents]
  simp only [onEvent, hs]
  exact ⟨_, rfl⟩

/-- The hypotheses of C77 are met by `<DartMeasurement name="x">1</DartMeasurement>`. -/
example : IsUB (readXML reference (header plainWorld ++ b!"<DartMeasurement name=\"x\">1</DartMeasurement>" ++ footer)) :=
  C77_missing_type_is_ub reference reference_conforms plainWorld plain_comment [] [] .nil (by simp) _ _
    (.cons b!"name" b!"x" b!"x" [] [] (by decide) (attrValue_chars _ (by decide)) .nil (by simp)) (by simp) ⟨(b!"name", b!"x"), by simp⟩
    b!"1" [] _ _ (content_escaped b!"1" (by decide)) .nil

/-- **C78, negative.** A well-formed baseline in which a measurement has a child element fails an assertion. -/
theorem C78_child_of_measurement (X : Expat) (hX : Conforms X) (w : World) (hw : Comment (commentText w)) (ms : List Meas) (texts : List Str)
    (h : List.Forall₂ (fun m t => m.print = .ok t) ms texts) (hc : ∀ m ∈ ms, Clean m)
    (as : Str) (l : List (Str × Str)) (has : Attrs as l) (s : Str) (hs : ∀ c ∈ s, Printable c)
    (n as' : Str) (l' : List (Str × Str)) (hn : Name n) (has' : Attrs as' l')
    (body more rest : Str) (ebody emore erest : List Event) (hbody : Content body ebody) (hmore : Content more emore)
    (hrest : Content rest erest) :
    readXML X (header w ++ (texts.flatMap (· ++ b!"\n") ++
      (b!"<" ++ b!"DartMeasurementFile" ++ as ++ b!">" ++
        (s.flatMap xmlChar ++ (b!"<" ++ n ++ as' ++ b!">" ++ body ++ b!"</" ++ n ++ b!">" ++ more)) ++
        b!"</" ++ b!"DartMeasurementFile" ++ b!">" ++ rest)) ++ footer) = .error (.assertFail "!pd.m") := by
  have hel := Content.element b!"DartMeasurementFile" as l _ _ rest erest (by decide) has
    ((content_escaped s hs).append (.element n as' l' body ebody more emore hn has' hbody hmore)) hrest
  rw [header_eq, readXML_body X hX w hw _ name_output _ _ ((content_lines ms texts h hc).append hel), onEvents_after ms hc]
  have hst : ∃ m, onStart { depth := 1, measurements := ms } b!"DartMeasurementFile" l =
      .ok { depth := 2, m := some m, measurements := ms } := by
    refine ⟨.file (fileAttributes l { type := b!"text/plain", name := b!"unknown" }), ?_⟩
    rw [onStart]; simp
  obtain ⟨m, hst⟩ := hst
  rw [List.cons_append, onEvents]
  simp only [onEvent, hst]
  rw [onEvents_append, onEvents_append, onEvents_letters _ _ rfl]
  simp [onEvents, onEvent, onStart]

/-- **C78, negative.** An unknown element with text - white space is enough - before a child element fails an assertion, too. -/
theorem C78_text_before_child (X : Expat) (hX : Conforms X) (w : World) (hw : Comment (commentText w)) (ms : List Meas) (texts : List Str)
    (h : List.Forall₂ (fun m t => m.print = .ok t) ms texts) (hc : ∀ m ∈ ms, Clean m)
    (u as : Str) (l : List (Str × Str)) (hu : Name u) (hu1 : u ≠ b!"DartMeasurement") (hu2 : u ≠ b!"DartMeasurementFile") (has : Attrs as l)
    (s : Str) (hs : ∀ c ∈ s, Printable c) (hs0 : s ≠ [])
    (n as' : Str) (l' : List (Str × Str)) (hn : Name n) (has' : Attrs as' l')
    (body more rest : Str) (ebody emore erest : List Event) (hbody : Content body ebody) (hmore : Content more emore)
    (hrest : Content rest erest) :
    readXML X (header w ++ (texts.flatMap (· ++ b!"\n") ++
      (b!"<" ++ u ++ as ++ b!">" ++
        (s.flatMap xmlChar ++ (b!"<" ++ n ++ as' ++ b!">" ++ body ++ b!"</" ++ n ++ b!">" ++ more)) ++
        b!"</" ++ u ++ b!">" ++ rest)) ++ footer) = .error (.assertFail "pd.data.length() == 0") := by
  have hel := Content.element u as l _ _ rest erest hu has
    ((content_escaped s hs).append (.element n as' l' body ebody more emore hn has' hbody hmore)) hrest
  rw [header_eq, readXML_body X hX w hw _ name_output _ _ ((content_lines ms texts h hc).append hel), onEvents_after ms hc]
  have hst : onStart { depth := 1, measurements := ms } u l = .ok { depth := 2, measurements := ms } := by
    rw [onStart]; simp [hu1, hu2]
  rw [List.cons_append, onEvents]
  simp only [onEvent, hst]
  rw [onEvents_append, onEvents_append, onEvents_letters _ _ rfl]
  simp [onEvents, onEvent, onStart, hs0]

/-- The hypotheses of C78 are met by a pretty printed element of another kind. -/
example : readXML reference (header plainWorld ++ b!"<a>\n<b></b></a>" ++ footer) = .error (.assertFail "pd.data.length() == 0") :=
  C78_text_before_child reference reference_conforms plainWorld plain_comment [] [] .nil (by simp) b!"a" [] [] (by decide) (by decide)
    (by decide) .nil b!"\n" (by decide) (by decide) b!"b" [] [] (by decide) .nil [] [] [] _ _ _ .nil .nil .nil

example : readXML reference (header plainWorld ++ b!"<DartMeasurementFile><b></b></DartMeasurementFile>" ++ footer) =
    .error (.assertFail "!pd.m") :=
  C78_child_of_measurement reference reference_conforms plainWorld plain_comment [] [] .nil (by simp) [] [] .nil
    [] (by simp) b!"b" [] [] (by decide) .nil [] [] [] _ _ _ .nil .nil .nil

/-! ## C79: what is ignored -/

/-- **C79.** An element of another kind, with any attributes and any text, and the name of the document element make no difference to
what is read. -/
theorem C79_unknown_ignored (X : Expat) (hX : Conforms X) (w : World) (hw : Comment (commentText w)) (root : Str) (hroot : Name root)
    (ms ms' : List Meas) (texts texts' : List Str)
    (h : List.Forall₂ (fun m t => m.print = .ok t) ms texts) (h' : List.Forall₂ (fun m t => m.print = .ok t) ms' texts')
    (hc : ∀ m ∈ ms, Clean m) (hc' : ∀ m ∈ ms', Clean m)
    (u as : Str) (l : List (Str × Str)) (hu : Name u) (hu1 : u ≠ b!"DartMeasurement") (hu2 : u ≠ b!"DartMeasurementFile") (has : Attrs as l)
    (s : Str) (hs : ∀ c ∈ s, Printable c) :
    readXML X (declaration ++ b!"\n<!--" ++ commentText w ++ b!"-->\n<" ++ root ++ b!">\n" ++ (texts.flatMap (· ++ b!"\n") ++
      (b!"<" ++ u ++ as ++ b!">" ++ s.flatMap xmlChar ++ b!"</" ++ u ++ b!">" ++ texts'.flatMap (· ++ b!"\n"))) ++
      b!"</" ++ root ++ b!">\n") = .ok (ms ++ ms') := by
  have hel := Content.element u as l _ _ _ _ hu has (content_escaped s hs) (content_lines ms' texts' h' hc')
  rw [readXML_body X hX w hw _ hroot _ _ ((content_lines ms texts h hc).append hel), onEvents_after ms hc]
  have hst : onStart { depth := 1, measurements := ms } u l = .ok { depth := 2, measurements := ms } := by
    rw [onStart]; simp [hu1, hu2]
  rw [List.cons_append, onEvents]
  simp only [onEvent, hst]
  rw [onEvents_append, onEvents_letters _ _ rfl]
  simp only [onEvents, onEvent, onEnd]
  rw [onEvents_lines ms' _ hc' rfl rfl rfl]

end Verif.Xml
