import Verif.Xml.Messages
import Verif.Xml.MessagesSpec
import Verif.Xml.TreeProps
import Verif.Xml.CrashProps

/-!
# Property C100: what the error stream says about a baseline
-/

set_option linter.unusedSimpArgs false

namespace Verif.Xml
open Spec Verif.Measurement Verif.Regression Verif.Regression.Spec Verif.Xml.Spec

/-! ## The outcome is that of the reader -/

theorem said_snd {α β : Type} (r : Said α) (f : α → Said β) :
    (r.andThen f).2 = match r.2 with | .error e => .error e | .ok a => (f a).2 := by
  rcases r with ⟨ms, e | a⟩ <;> rfl

theorem said_fst {α β : Type} (r : Said α) (f : α → Said β) :
    (r.andThen f).1 = r.1 ++ match r.2 with | .error _ => [] | .ok a => (f a).1 := by
  rcases r with ⟨ms, e | a⟩
  · exact (List.append_nil ms).symm
  · rfl

theorem createLoopM_snd (l : List (Str × Str)) : ∀ d, (createLoopM l d).2 = createLoop l d := by
  induction l with
  | nil => intro d; rfl
  | cons p l ih =>
    obtain ⟨a, v⟩ := p
    intro d
    rw [createLoopM, createLoop]
    by_cases h : a = b!"type"
    · rw [if_pos h, if_pos h]
      cases hc : createDataMeasurement v with
      | none => exact ih _
      | some d => exact ih _
    · rw [if_neg h, if_neg h]; exact ih d

theorem dataAttributesM_snd (l : List (Str × Str)) : ∀ d, (dataAttributesM l d).2 = dataAttributes l d := by
  induction l with
  | nil => intro d; rfl
  | cons p l ih =>
    obtain ⟨a, v⟩ := p
    intro d
    rw [dataAttributesM.eq_def, dataAttributes.eq_def]
    simp only
    by_cases h1 : a = b!"name"
    · rw [if_pos h1, if_pos h1]
      cases d with
      | none => rfl
      | some d => exact ih _
    · rw [if_neg h1, if_neg h1]
      by_cases h2 : a = b!"type"
      · rw [if_pos h2, if_pos h2]; exact ih d
      · rw [if_neg h2, if_neg h2]
        by_cases h3 : a = b!"encoding"
        · rw [if_pos h3, if_pos h3]
          cases d with
          | none => rfl
          | some d => exact ih _
        · rw [if_neg h3, if_neg h3]
          by_cases h4 : a = b!"compression"
          · rw [if_pos h4, if_pos h4]
            cases d with
            | none => rfl
            | some d => exact ih _
          · rw [if_neg h4, if_neg h4]; exact ih d

theorem fileAttributesM_snd (l : List (Str × Str)) : ∀ f, (fileAttributesM l f).2 = fileAttributes l f := by
  induction l with
  | nil => intro d; rfl
  | cons p l ih =>
    obtain ⟨a, v⟩ := p
    intro d
    rw [fileAttributesM, fileAttributes]
    by_cases h1 : a = b!"name"
    · rw [if_pos h1, if_pos h1]; exact ih _
    · rw [if_neg h1, if_neg h1]
      by_cases h2 : a = b!"type"
      · rw [if_pos h2, if_pos h2]; exact ih _
      · rw [if_neg h2, if_neg h2]; exact ih _

theorem onStartM_snd (pd : ParseData) (el : Str) (l : List (Str × Str)) : (onStartM pd el l).2 = onStart pd el l := by
  rw [onStartM, onStart]
  by_cases h1 : pd.m.isSome
  · rw [if_pos h1, if_pos h1]
  rw [if_neg h1, if_neg h1]
  by_cases h2 : pd.data.length ≠ 0
  · rw [if_pos h2, if_pos h2]
  rw [if_neg h2, if_neg h2]
  by_cases h3 : pd.depth = 0
  · rw [if_pos h3, if_neg (show ¬ pd.depth = 1 by rw [h3]; decide)]
  rw [if_neg h3]
  by_cases h4 : pd.depth = 1
  · rw [if_pos h4, if_pos h4]
    by_cases h5 : el = b!"DartMeasurement"
    · rw [if_pos h5, if_pos h5]
      simp only [said_snd, createLoopM_snd, dataAttributesM_snd]
      cases dataAttributes l (createLoop l none) <;> rfl
    rw [if_neg h5, if_neg h5]
    by_cases h6 : el = b!"DartMeasurementFile"
    · rw [if_pos h6, if_pos h6]
      simp only [fileAttributesM_snd]
    · rw [if_neg h6, if_neg h6]
  · rw [if_neg h4, if_neg h4]

theorem onEventM_snd (pd : ParseData) (e : Event) : (onEventM pd e).2 = onEvent pd e := by
  cases e with
  | start el l => exact onStartM_snd pd el l
  | stop el => rfl
  | text s => rfl

theorem onEventsM_snd (es : List Event) : ∀ pd, (onEventsM pd es).2 = onEvents pd es := by
  induction es with
  | nil => intro pd; rfl
  | cons e es ih =>
    intro pd
    rw [onEventsM, onEvents, said_snd, onEventM_snd]
    cases onEvent pd e with
    | error f => rfl
    | ok pd => exact ih pd

theorem onEventsM_append (a b : List Event) : ∀ pd, onEventsM pd (a ++ b) = (onEventsM pd a).andThen fun pd => onEventsM pd b := by
  induction a with
  | nil => intro pd; simp [onEventsM, Said.andThen]
  | cons e a ih =>
    intro pd
    rw [List.cons_append, onEventsM, onEventsM]
    rcases onEventM pd e with ⟨ms, f | pd'⟩
    · rfl
    · simp only [Said.andThen, ih]
      rcases onEventsM pd' a with ⟨ms', f | pd''⟩ <;> simp [Said.andThen]

theorem onEventsM_fst_append (a b : List Event) (pd : ParseData) :
    (onEventsM pd (a ++ b)).1 = (onEventsM pd a).1 ++ match onEvents pd a with | .error _ => [] | .ok pd => (onEventsM pd b).1 := by
  rw [onEventsM_append, said_fst, onEventsM_snd]
  cases onEvents pd a <;> rfl

theorem onEventsM_fst_cons (e : Event) (b : List Event) (pd : ParseData) :
    (onEventsM pd (e :: b)).1 = (onEventM pd e).1 ++ match onEvent pd e with | .error _ => [] | .ok pd => (onEventsM pd b).1 := by
  rw [onEventsM, said_fst, onEventM_snd]
  cases onEvent pd e <;> rfl

/-- Text makes no difference. -/
theorem onEventsM_canon (pd : ParseData) (es : List Event) : onEventsM pd (canon es) = onEventsM pd es := by
  induction es generalizing pd with
  | nil => rfl
  | cons e es ih =>
    cases e with
    | start el l => simp only [canon, onEventsM, ih]
    | stop el => simp only [canon, onEventsM, ih]
    | text s =>
      have ht : ∀ pd t r, onEventsM pd (.text t :: r) = onEventsM (onText pd t) r := by
        intro pd t r
        simp [onEventsM, onEventM, Said.andThen]
      rw [ht, ← ih, canon]
      split
      · next t r hc => rw [hc, ht, ht, onText_onText]
      · next r hc =>
        split
        · next hs => rw [hs, onText_nil]
        · exact ht _ _ _

/-! ## The loop -/

/-- What the reader says about the callbacks of a whole document, and at the end. -/
def concludeM (r : List Event × Bool) (said : Str) (pd : ParseData) : Said (List Meas) :=
  (onEventsM pd r.1).andThen fun pd =>
    if r.2 then ([], leave pd (.ok pd.measurements)) else ([said], leave pd (.error (.thrown "parse error")))

/-- The state in which the parser is left. -/
def feedsState (X : Expat) : X.State → List (Str × Bool) → X.State
  | st, [] => st
  | st, (c, f) :: cs =>
    match X.feed st c f with
    | (st, _, true) => feedsState X st cs
    | (st, _, false) => st

theorem readLoopM_succ (X : Expat) (line why : X.State → Str) (size fuel : Nat) (rest : Str) (st : X.State) (pd : ParseData) :
    readLoopM X line why size (fuel + 1) rest st pd =
      if (rest.take 1024).length < (if decide (rest.length < 1024) then size % 1024 else 1024) then
        ([], .error (.ub "bytes that were not read"))
      else
        let r := X.feed st ((rest.take 1024).take (if decide (rest.length < 1024) then size % 1024 else 1024)) (decide (rest.length < 1024))
        (onEventsM pd r.2.1).andThen fun pd =>
          if r.2.2 then
            if decide (rest.length < 1024) then ([], leave pd (.ok pd.measurements)) else readLoopM X line why size fuel (rest.drop 1024) r.1 pd
          else ([parseError (line r.1) (why r.1)], leave pd (.error (.thrown "parse error"))) := rfl

theorem readLoopM_chunked (X : Expat) (line why : X.State → Str) (size : Nat) : ∀ (n : Nat) (rest : Str) (st : X.State) (pd : ParseData),
    rest.length / 1024 = n → size % 1024 = rest.length % 1024 →
    readLoopM X line why size (n + 1) rest st pd = concludeM (feeds X st (chunked n rest))
      (parseError (line (feedsState X st (chunked n rest))) (why (feedsState X st (chunked n rest)))) pd := by
  intro n
  induction n with
  | zero =>
    intro rest st pd hn hs
    have hlt : rest.length < 1024 := by omega
    rw [readLoopM_succ]
    have h1 : size % 1024 = rest.length := by omega
    have h2 : rest.take 1024 = rest := List.take_of_length_le (by omega)
    simp only [hlt, decide_true, if_true, h1, h2, Nat.lt_irrefl, if_false, List.take_length, concludeM]
    rcases hq : X.feed st rest true with ⟨st', es, ok⟩
    rw [chunked, feeds_cons, hq]
    cases ok <;> simp [feeds, feedsState, hq]
  | succ n ih =>
    intro rest st pd hn hs
    have hge : ¬ rest.length < 1024 := by omega
    rw [readLoopM_succ]
    have h3 : (rest.take 1024).length = 1024 := by rw [List.length_take]; omega
    simp only [hge, decide_false, Bool.false_eq_true, if_false, h3, Nat.lt_irrefl]
    have h2 : (rest.take 1024).take 1024 = rest.take 1024 := List.take_of_length_le (by omega)
    rw [h2]
    rcases hq : X.feed st (rest.take 1024) false with ⟨st', es, ok⟩
    rw [chunked, if_neg hge, feeds_cons, feedsState, hq]
    cases ok with
    | false => simp [concludeM]
    | true =>
      simp only [concludeM, onEventsM_append, if_true]
      rcases onEventsM pd es with ⟨ms, f | pd'⟩
      · rfl
      · simp only [Said.andThen]
        rw [ih _ st' pd' (by rw [List.length_drop]; omega) (by rw [List.length_drop]; omega), concludeM]
        rcases onEventsM pd' (feeds X st' (chunked n (rest.drop 1024))).1 with ⟨ms', f | pd''⟩ <;> simp [Said.andThen]

theorem readXMLM_chunked (X : Expat) (line why : X.State → Str) (bytes : Str) :
    ∃ (chunks : List (Str × Bool)) (last : X.State), bytesOf chunks = bytes ∧ Flagged chunks ∧
      readXML X bytes = conclude (feeds X X.init chunks) {} ∧
      readXMLM X line why bytes = concludeM (feeds X X.init chunks) (parseError (line last) (why last)) {} :=
  ⟨chunked (bytes.length / 1024) bytes, feedsState X X.init (chunked (bytes.length / 1024) bytes), chunked_bytes _ _, chunked_flagged _ _,
    readLoop_chunked X _ _ _ _ _ rfl rfl, readLoopM_chunked X line why _ _ _ _ _ rfl rfl⟩

/-- **C100.** Keeping what is written to the error stream does not change what is read. -/
theorem C100_same_reader (X : Expat) (line why : X.State → Str) (bytes : Str) : (readXMLM X line why bytes).2 = readXML X bytes := by
  obtain ⟨chunks, last, _, _, h1, h2⟩ := readXMLM_chunked X line why bytes
  rw [h1, h2, concludeM, conclude, said_snd, onEventsM_snd]
  cases onEvents {} (feeds X X.init chunks).1 with
  | error f => rfl
  | ok pd => cases (feeds X X.init chunks).2 <;> rfl

theorem readXMLM_document (X : Expat) (line why : X.State → Str) (hX : Conforms X) (s : Str) (es : List Event) (h : Document s es) :
    (readXMLM X line why s).1 = (onEventsM {} es).1 := by
  obtain ⟨chunks, last, hb, hf, _, h2⟩ := readXMLM_chunked X line why s
  obtain ⟨h3, h4⟩ := hX s es h chunks hf hb
  rw [h2, concludeM, said_fst, h4, ← onEventsM_canon, h3, onEventsM_canon]
  simp only [if_true]
  cases (onEventsM {} es).2 <;> exact List.append_nil _

/-! ## The messages of an element -/

theorem known_create (t : Str) : createDataMeasurement t = none ↔ t ∉ knownTypes := by
  simp only [knownTypes, List.mem_cons, List.not_mem_nil, or_false, not_or]
  rw [createDataMeasurement]
  constructor
  · intro h
    refine ⟨?_, ?_, ?_, ?_, ?_, ?_⟩ <;> rintro rfl <;> simp at h
  · rintro ⟨h1, h2, h3, h4, h5, h6⟩
    rw [if_neg h1, if_neg h2, if_neg h3, if_neg h4, if_neg h5, if_neg h6]

theorem createLoopM_fst (l : List (Str × Str)) (hn : (l.map Prod.fst).Nodup) : ∀ d, (createLoopM l d).1 =
    match attr l b!"type" with
    | some t => if t ∈ knownTypes then [] else [b!"XML: unknow dart measurement type \"" ++ t ++ b!"\"\n"]
    | none => [] := by
  induction l with
  | nil => intro d; rfl
  | cons p l ih =>
    obtain ⟨a, v⟩ := p
    intro d
    simp only [List.map_cons, List.nodup_cons] at hn
    rw [createLoopM, attr_cons]
    by_cases h : a = b!"type"
    · have hno : attr l b!"type" = none := attr_none_of_notMem (by rw [← h]; exact hn.1)
      rw [if_pos h, if_pos h]
      cases hc : createDataMeasurement v with
      | none =>
        simp only [ih hn.2, hno]
        rw [if_neg ((known_create v).mp hc)]
      | some d =>
        simp only [ih hn.2, hno]
        rw [if_pos]
        by_contra hx
        rw [(known_create v).mpr hx] at hc
        cases hc
    · rw [if_neg h, if_neg h]; exact ih hn.2 d

theorem mem_dataKeys (a : Str) : a ∈ dataKeys ↔ a = b!"name" ∨ a = b!"type" ∨ a = b!"encoding" ∨ a = b!"compression" := by
  simp [dataKeys]

theorem mem_fileKeys (a : Str) : a ∈ fileKeys ↔ a = b!"name" ∨ a = b!"type" := by
  simp [fileKeys]

theorem attributeMessages_cons (ks : List Str) (p : Str × Str) (l : List (Str × Str)) : attributeMessages ks (p :: l) =
    if p.1 ∈ ks then attributeMessages ks l else (b!"XML: unknow attribute \"" ++ p.1 ++ b!"\"\n") :: attributeMessages ks l := by
  simp only [attributeMessages, List.filter_cons]
  by_cases h : p.1 ∈ ks <;> simp [h]

theorem dataAttributesM_some (l : List (Str × Str)) : ∀ d : DataM, (dataAttributesM l (some d)).1 = attributeMessages dataKeys l := by
  induction l with
  | nil => intro d; rfl
  | cons p l ih =>
    obtain ⟨a, v⟩ := p
    intro d
    rw [dataAttributesM.eq_def, attributeMessages_cons]
    simp only
    by_cases h1 : a = b!"name"
    · rw [if_pos h1, if_pos ((mem_dataKeys a).mpr (.inl h1))]; exact ih _
    rw [if_neg h1]
    by_cases h2 : a = b!"type"
    · rw [if_pos h2, if_pos ((mem_dataKeys a).mpr (.inr (.inl h2)))]; exact ih _
    rw [if_neg h2]
    by_cases h3 : a = b!"encoding"
    · rw [if_pos h3, if_pos ((mem_dataKeys a).mpr (.inr (.inr (.inl h3))))]; exact ih _
    rw [if_neg h3]
    by_cases h4 : a = b!"compression"
    · rw [if_pos h4, if_pos ((mem_dataKeys a).mpr (.inr (.inr (.inr h4))))]; exact ih _
    rw [if_neg h4, if_neg (by simp [mem_dataKeys, h1, h2, h3, h4])]
    simp only [ih]

theorem dataAttributesM_none (l : List (Str × Str)) (hn : attr l b!"type" = none) : (dataAttributesM l none).1 =
    attributeMessages dataKeys (l.takeWhile fun p => p.1 ∉ dataKeys) := by
  induction l with
  | nil => rfl
  | cons p l ih =>
    obtain ⟨a, v⟩ := p
    rw [attr_cons] at hn
    by_cases h2 : a = b!"type"
    · rw [if_pos h2] at hn; cases hn
    rw [if_neg h2] at hn
    rw [dataAttributesM.eq_def, List.takeWhile_cons]
    simp only
    by_cases h1 : a = b!"name"
    · rw [if_pos h1]; simp [mem_dataKeys, h1, attributeMessages]
    rw [if_neg h1, if_neg h2]
    by_cases h3 : a = b!"encoding"
    · rw [if_pos h3]; simp [mem_dataKeys, h3, attributeMessages]
    rw [if_neg h3]
    by_cases h4 : a = b!"compression"
    · rw [if_pos h4]; simp [mem_dataKeys, h4, attributeMessages]
    rw [if_neg h4]
    have hk : a ∉ dataKeys := by simp [mem_dataKeys, h1, h2, h3, h4]
    simp only [hk, not_false_eq_true, decide_true, if_true]
    rw [attributeMessages_cons, if_neg hk, ih hn]

theorem fileAttributesM_fst (l : List (Str × Str)) : ∀ f : FileM, (fileAttributesM l f).1 = attributeMessages fileKeys l := by
  induction l with
  | nil => intro d; rfl
  | cons p l ih =>
    obtain ⟨a, v⟩ := p
    intro d
    rw [fileAttributesM, attributeMessages_cons]
    by_cases h1 : a = b!"name"
    · rw [if_pos h1, if_pos ((mem_fileKeys a).mpr (.inl h1))]; exact ih _
    rw [if_neg h1]
    by_cases h2 : a = b!"type"
    · rw [if_pos h2, if_pos ((mem_fileKeys a).mpr (.inr h2))]; exact ih _
    rw [if_neg h2, if_neg (by simp [mem_fileKeys, h1, h2])]
    simp only [ih]

/-! ## The messages of content -/

theorem onText_deep (d : Int) (ms : List Meas) (s : Str) (h : 3 ≤ d) : onText { depth := d, measurements := ms } s = { depth := d, measurements := ms } := by
  rw [onText, if_neg (by simp only; omega)]

theorem messages_deep (f : Forest) : ∀ (d : Int) (ms : List Meas), 3 ≤ d →
    (onEventsM { depth := d, measurements := ms } f.events).1 = List.replicate f.elements b!"XML: depth is too deep\n" := by
  induction f with
  | nil => intro d ms _; rfl
  | text s r ih =>
    intro d ms hd
    rw [Forest.events, onEventsM_fst_cons]
    simp only [onEvent, onEventM, onText_deep d ms s hd, Forest.elements, List.nil_append]
    exact ih d ms hd
  | element n l b r ihb ihr =>
    intro d ms hd
    have hs : onStart { depth := d, measurements := ms } n l = .ok { depth := d + 1, measurements := ms } := by
      simp only [onStart]
      rw [if_neg (by simp), if_neg (by simp), if_neg (by omega)]
    have hm : (onStartM { depth := d, measurements := ms } n l).1 = [b!"XML: depth is too deep\n"] := by
      simp only [onStartM]
      rw [if_neg (by simp), if_neg (by simp), if_neg (by omega), if_neg (by omega)]
    rw [Forest.events, List.cons_append, onEventsM_fst_cons]
    simp only [onEvent, onEventM, hs, hm]
    rw [onEventsM_fst_append, ihb (d + 1) ms (by omega), events_deep b (d + 1) ms (by omega)]
    simp only
    rw [onEventsM_fst_cons]
    simp only [onEvent, onEventM, onEnd, Int.add_sub_cancel, List.nil_append]
    rw [ihr d ms hd, Forest.elements, Nat.add_assoc, ← List.replicate_append_replicate, ← List.replicate_append_replicate]
    rfl

theorem messages_skipped (f : Forest) : ∀ (a : Str) (ms : List Meas),
    (onEventsM { depth := 2, data := a, measurements := ms } f.events).1 = nestedMessages (!a.isEmpty) f := by
  induction f with
  | nil => intro a ms; rfl
  | text s r ih =>
    intro a ms
    have hb : (!(a ++ s).isEmpty) = ((!a.isEmpty) || (!s.isEmpty)) := by cases a <;> cases s <;> rfl
    rw [Forest.events, onEventsM_fst_cons]
    simp only [onEvent, onEventM, onText, if_true, List.nil_append]
    rw [ih, nestedMessages, hb]
  | element n l b r ihb ihr =>
    intro a ms
    rw [Forest.events, List.cons_append, onEventsM_fst_cons]
    cases a with
    | cons c a => simp [onEvent, onEventM, onStart, onStartM, nestedMessages]
    | nil =>
      have hs : onStart { depth := 2, data := [], measurements := ms } n l = .ok { depth := 3, measurements := ms } := by simp [onStart]
      have hm : (onStartM { depth := 2, data := [], measurements := ms } n l).1 = [b!"XML: depth is too deep\n"] := by simp [onStartM]
      simp only [onEvent, onEventM, hs, hm]
      rw [onEventsM_fst_append, messages_deep b 3 ms (by omega), events_deep b 3 ms (by omega)]
      simp only
      rw [onEventsM_fst_cons]
      simp only [onEvent, onEventM, onEnd, List.nil_append]
      rw [show (3 : Int) - 1 = 2 from rfl, ihr [] ms]
      simp [nestedMessages, Nat.add_comm 1, List.replicate_succ]

theorem messages_measured (f : Forest) (m : Meas) : ∀ (a : Str) (ms : List Meas),
    (onEventsM { depth := 2, data := a, m := some m, measurements := ms } f.events).1 = [] := by
  induction f with
  | nil => intro a ms; rfl
  | text s r ih =>
    intro a ms
    rw [Forest.events, onEventsM_fst_cons]
    simp only [onEvent, onEventM, onText, if_true, List.nil_append]
    exact ih _ _
  | element n l b r _ _ =>
    intro a ms
    rw [Forest.events, List.cons_append, onEventsM_fst_cons]
    simp [onEvent, onEventM, onStart, onStartM]

theorem messages_element (n : Str) (l : List (Str × Str)) (hl : (l.map Prod.fst).Nodup) (b : Forest) (ms : List Meas) :
    (onEventsM { depth := 1, measurements := ms } (.start n l :: b.events ++ [.stop n])).1 = elementMessages n l b := by
  have hstop : ∀ pd, (onEventsM pd [.stop n]).1 = [] := by intro pd; rfl
  have hend : (onEventsM { depth := 1, measurements := ms } (.start n l :: b.events ++ [.stop n])).1 =
      (onStartM { depth := 1, measurements := ms } n l).1 ++
        match onStart { depth := 1, measurements := ms } n l with
        | .error _ => []
        | .ok pd => (onEventsM pd b.events).1 := by
    rw [List.cons_append, onEventsM_fst_cons]
    simp only [onEventM, onEvent]
    cases onStart { depth := 1, measurements := ms } n l with
    | error f => rfl
    | ok pd =>
      simp only
      rw [onEventsM_fst_append]
      cases onEvents pd b.events with
      | error f => simp
      | ok pd' => simp [hstop]
  rw [hend, elementMessages]
  by_cases hn1 : n = b!"DartMeasurement"
  · rw [if_pos hn1]
    have hM : (onStartM { depth := 1, measurements := ms } n l).1 = (createLoopM l none).1 ++ (dataAttributesM l (createLoop l none)).1 := by
      simp only [onStartM, hn1]
      simp only [Option.isSome_none, Bool.false_eq_true, if_false, List.length_nil, ne_eq, not_true_eq_false, if_true, Int.one_ne_zero]
      rw [said_fst]
      simp only
      rw [said_fst]
      simp only [createLoopM_snd]
      cases (dataAttributesM l (createLoop l none)).2 <;> simp
    rw [hM, createLoopM_fst l hl, createLoop_attr l hl]
    cases ht : attr l b!"type" with
    | some t =>
      have hs : ∃ m, onStart { depth := 1, measurements := ms } n l = .ok { depth := 2, m := some m, measurements := ms } := by
        refine ⟨.data { kind := kindOf t, name := (attr l b!"name").getD [], encoding := (attr l b!"encoding").getD b!"none", compression := (attr l b!"compression").getD b!"none" }, ?_⟩
        simp only [onStart, hn1, createLoop_attr l hl, ht, dataAttributes_attr l hl]
        simp
      obtain ⟨m, hs⟩ := hs
      rw [hs]
      simp only [messages_measured, dataAttributesM_some, List.append_nil]
    | none =>
      simp only [List.nil_append, dataAttributesM_none l ht]
      by_cases hx : ∃ p ∈ l, p.1 ∈ dataKeys
      · rw [if_pos hx]
        have hub : ∃ w, onStart { depth := 1, measurements := ms } n l = .error (.ub w) := by
          obtain ⟨p, hp, hk⟩ := hx
          have hnt : p.1 ≠ b!"type" := by
            intro h
            simp only [attr, Option.map_eq_none_iff, List.find?_eq_none, decide_eq_true_eq] at ht
            exact ht p hp h
          obtain ⟨w, hw⟩ := dataAttributes_null l ⟨p, hp, by
            rcases (mem_dataKeys _).mp hk with h | h | h | h
            · exact .inl h
            · exact absurd h hnt
            · exact .inr (.inl h)
            · exact .inr (.inr h)⟩
          exact ⟨w, by simp only [onStart, hn1, createLoop_attr l hl, ht, hw]; simp⟩
        obtain ⟨w, hw⟩ := hub
        rw [hw]
        exact List.append_nil _
      · rw [if_neg hx]
        have hall : ∀ p ∈ l, p.1 ∉ dataKeys := fun p hp hk => hx ⟨p, hp, hk⟩
        have htw : (l.takeWhile fun p => p.1 ∉ dataKeys) = l := by
          clear * - hall
          induction l with
          | nil => rfl
          | cons p l ih =>
            rw [List.takeWhile_cons]
            simp only [hall p (by simp), not_false_eq_true, decide_true, if_true]
            rw [ih fun q hq => hall q (List.mem_cons_of_mem _ hq)]
        have hno : dataAttributes l none = .ok none := by
          apply dataAttributes_none
          intro p hp
          have := hall p hp
          simp only [mem_dataKeys, not_or] at this ⊢
          exact ⟨this.1, this.2.2.1, this.2.2.2⟩
        have hs : onStart { depth := 1, measurements := ms } n l = .ok { depth := 2, measurements := ms } := by
          simp only [onStart, hn1, createLoop_attr l hl, ht, hno]
          simp
        rw [hs, htw]
        simp only
        rw [messages_skipped]
        rfl
  · rw [if_neg hn1]
    by_cases hn2 : n = b!"DartMeasurementFile"
    · rw [if_pos hn2]
      have hs : ∃ m, onStart { depth := 1, measurements := ms } n l = .ok { depth := 2, m := some m, measurements := ms } := by
        refine ⟨.file (fileAttributes l { type := b!"text/plain", name := b!"unknown" }), ?_⟩
        simp [onStart, hn2]
      obtain ⟨m, hs⟩ := hs
      have hM : (onStartM { depth := 1, measurements := ms } n l).1 = attributeMessages fileKeys l := by
        simp [onStartM, hn2, fileAttributesM_fst]
      rw [hs, hM]
      simp only [messages_measured, List.append_nil]
    · rw [if_neg hn2]
      have hs : onStart { depth := 1, measurements := ms } n l = .ok { depth := 2, measurements := ms } := by
        simp [onStart, hn1, hn2]
      have hM : (onStartM { depth := 1, measurements := ms } n l).1 = [b!"XML: unknown element type \"" ++ n ++ b!"\"\n"] := by
        simp [onStartM, hn1, hn2]
      rw [hs, hM]
      simp only
      rw [messages_skipped]
      rfl

theorem messages_forest (f : Forest) (h : Forest.Distinct f) : ∀ ms : List Meas,
    (onEventsM { depth := 1, measurements := ms } f.events).1 = forestMessages f := by
  induction f with
  | nil => intro ms; rfl
  | text s r ih =>
    intro ms
    rw [Forest.events, onEventsM_fst_cons]
    simp only [onEvent, onEventM, onText, List.nil_append]
    rw [if_neg (by simp), forestMessages]
    exact ih h ms
  | element n l b r _ ihr =>
    intro ms
    have he := element_read n l h.1 b ms
    have hsplit : (Forest.element n l b r).events = (.start n l :: b.events ++ [.stop n]) ++ r.events := by
      simp [Forest.events]
    rw [hsplit, onEventsM_fst_append, messages_element n l h.1 b ms, forestMessages]
    cases hr : readElement n l b with
    | measurements ms1 =>
      rw [hr] at he
      simp only [Result] at he
      rw [he]
      simp only [ihr h.2.2]
    | assertion => rw [hr] at he; obtain ⟨m, hm⟩ := he; rw [hm]
    | undefined => rw [hr] at he; obtain ⟨m, hm⟩ := he; rw [hm]

/-- **C100.** What the error stream says about a baseline.  For every document of the grammar, however it is cut into chunks: one line if the
document element is not `output`; for each child of it, in order, one line if its type is unknown, one for each attribute that is unknown, one if
it is an element of another kind, and one for each element inside such an element; nothing else.  If the program is stopped (C83), only what
precedes that point is said. -/
theorem C100_messages (X : Expat) (line why : X.State → Str) (hX : Conforms X) (s n : Str) (l : List (Str × Str)) (f : Forest)
    (h : Document s (.start n l :: f.events ++ [.stop n])) : (readXMLM X line why s).1 = rootMessages n ++ forestMessages f := by
  rw [readXMLM_document X line why hX s _ h]
  obtain ⟨c, n', as, l', body, bes, _, _, has, hbody, _, he⟩ := h
  have hf : f.events = bes := by
    simp only [List.cons_append, List.cons.injEq] at he
    have := congrArg List.dropLast he.2
    simpa using this
  subst hf
  have h0 : onStart {} n l = .ok { depth := 1 } := by simp [onStart]
  have hM : (onStartM {} n l).1 = rootMessages n := by
    rw [rootMessages]
    by_cases hn : n = b!"output" <;> simp [onStartM, hn]
  rw [List.cons_append, onEventsM_fst_cons]
  simp only [onEvent, onEventM, h0, hM]
  rw [onEventsM_fst_append, messages_forest f (forest_distinct f (content_nodup hbody)) []]
  cases onEvents { depth := 1 } f.events with
  | error f => simp
  | ok pd => simp [onEventsM, onEventM, Said.andThen]

/-! ## Silence -/

theorem attributeMessages_nil (ks : List Str) (l : List (Str × Str)) : attributeMessages ks l = [] ↔ ∀ p ∈ l, p.1 ∈ ks := by
  simp [attributeMessages, List.filter_eq_nil_iff]

theorem nestedMessages_nil (f : Forest) : ∀ seen, f.textThenElement seen = false → (nestedMessages seen f = [] ↔ f.hasElement = false) := by
  induction f with
  | nil => intro seen _; simp [nestedMessages, Forest.hasElement]
  | text s r ih => intro seen h; exact ih _ h
  | element n l b r _ _ =>
    intro seen h
    rw [Forest.textThenElement, Bool.or_eq_false_iff] at h
    simp [nestedMessages, Forest.hasElement, h.1, Nat.add_comm 1, List.replicate_succ]

theorem textThenElement_of_none (f : Forest) (h : f.hasElement = false) : ∀ seen, f.textThenElement seen = false := by
  induction f with
  | nil => intro seen; rfl
  | text s r ih => intro seen; exact ih h _
  | element n l b r _ _ => cases h

theorem element_quiet (n : Str) (l : List (Str × Str)) (b : Forest) :
    ((∃ ms, readElement n l b = .measurements ms) ∧ elementMessages n l b = []) ↔
    (b.hasElement = false ∧
      ((n = b!"DartMeasurement" ∧ (∀ p ∈ l, p.1 ∈ dataKeys) ∧ (l = [] ∨ ∃ t ∈ knownTypes, attr l b!"type" = some t)) ∨
       (n = b!"DartMeasurementFile" ∧ ∀ p ∈ l, p.1 ∈ fileKeys))) := by
  have hmeas : ∀ g : Str → Meas, (∃ ms, measured b g = .measurements ms) ↔ b.hasElement = false := by
    intro g
    rw [measured]
    cases b.hasElement <;> simp
  have hskip : ((∃ ms, skipped b = .measurements ms) ∧ nestedMessages false b = []) ↔ b.hasElement = false := by
    rw [skipped]
    constructor
    · rintro ⟨⟨ms, hms⟩, h⟩
      have hf : b.textThenElement false = false := by
        cases hb : b.textThenElement false with
        | false => rfl
        | true => rw [hb] at hms; simp at hms
      exact (nestedMessages_nil b false hf).mp h
    · intro h
      have hf := textThenElement_of_none b h false
      exact ⟨⟨[], by rw [hf]; rfl⟩, (nestedMessages_nil b false hf).mpr h⟩
  have hne : (b!"DartMeasurementFile" : Str) ≠ b!"DartMeasurement" := by decide
  rw [readElement, elementMessages]
  by_cases hn1 : n = b!"DartMeasurement"
  · have hn2 : n ≠ b!"DartMeasurementFile" := by rw [hn1]; exact hne.symm
    rw [if_pos hn1, if_pos hn1]
    simp only [hn1, hne.symm, true_and, false_and, or_false]
    cases ht : attr l b!"type" with
    | some t =>
      have hl : l ≠ [] := by rintro rfl; cases ht
      simp only [hmeas, List.append_eq_nil_iff, attributeMessages_nil, hl, false_or, Option.some.injEq]
      constructor
      · rintro ⟨h1, h2, h3⟩
        refine ⟨h1, h3, t, ?_, rfl⟩
        by_contra hx
        rw [if_neg hx] at h2
        cases h2
      · rintro ⟨h1, h3, t', h2, rfl⟩
        exact ⟨h1, by rw [if_pos h2], h3⟩
    | none =>
      simp only [reduceCtorEq, and_false, exists_false, or_false]
      by_cases hx : ∃ p ∈ l, p.1 ∈ dataKeys
      · have hl : l ≠ [] := by rintro rfl; obtain ⟨p, hp, _⟩ := hx; cases hp
        have hu : (attr l b!"name").isSome ∨ (attr l b!"encoding").isSome ∨ (attr l b!"compression").isSome := by
          obtain ⟨p, hp, hk⟩ := hx
          have key : ∀ k, p.1 = k → (attr l k).isSome := by
            intro k hk
            simp only [attr, Option.isSome_map, List.find?_isSome, decide_eq_true_eq]
            exact ⟨p, hp, hk⟩
          rcases (mem_dataKeys _).mp hk with h | h | h | h
          · exact .inl (key _ h)
          · have := key _ h; rw [ht] at this; cases this
          · exact .inr (.inl (key _ h))
          · exact .inr (.inr (key _ h))
        rw [if_pos hu]
        simp [hl]
      · have hu : ¬ ((attr l b!"name").isSome ∨ (attr l b!"encoding").isSome ∨ (attr l b!"compression").isSome) := by
          have key : ∀ k ∈ dataKeys, ¬ (attr l k).isSome := by
            intro k hk
            simp only [attr, Option.isSome_map, List.find?_isSome, decide_eq_true_eq]
            rintro ⟨p, hp, rfl⟩
            exact hx ⟨p, hp, hk⟩
          rintro (h | h | h)
          · exact key b!"name" (by decide) h
          · exact key b!"encoding" (by decide) h
          · exact key b!"compression" (by decide) h
        rw [if_neg hu, if_neg hx, List.append_eq_nil_iff, attributeMessages_nil]
        constructor
        · rintro ⟨h1, h2, h3⟩
          refine ⟨hskip.mp ⟨h1, h3⟩, h2, ?_⟩
          cases l with
          | nil => rfl
          | cons p l => exact absurd ⟨p, by simp, h2 p (by simp)⟩ hx
        · rintro ⟨h1, h2, h3⟩
          obtain ⟨h4, h5⟩ := hskip.mpr h1
          exact ⟨h4, h2, h5⟩
  · rw [if_neg hn1, if_neg hn1]
    by_cases hn2 : n = b!"DartMeasurementFile"
    · rw [if_pos hn2, if_pos hn2]
      simp only [hmeas, hn2, hne, true_and, false_and, false_or, attributeMessages_nil]
    · rw [if_neg hn2, if_neg hn2]
      simp [hn1, hn2]

theorem forest_quiet (f : Forest) : ((∃ ms, readForest f = .measurements ms) ∧ forestMessages f = []) ↔ f.Quiet := by
  induction f with
  | nil => simp [readForest, forestMessages, Forest.Quiet]
  | text s r ih => exact ih
  | element n l b r _ ihr =>
    rw [readForest, forestMessages, Forest.Quiet, List.append_eq_nil_iff, ← ihr]
    have he := element_quiet n l b
    cases hr : readElement n l b with
    | measurements ms1 =>
      rw [hr] at he
      simp only
      constructor
      · rintro ⟨⟨ms, h1⟩, h2, h3⟩
        obtain ⟨h4, h5⟩ := he.mp ⟨⟨ms1, rfl⟩, h2⟩
        refine ⟨h4, ⟨?_, h3⟩, h5⟩
        cases hr2 : readForest r with
        | measurements ms2 => exact ⟨ms2, rfl⟩
        | assertion => rw [hr2] at h1; cases h1
        | undefined => rw [hr2] at h1; cases h1
      · rintro ⟨h4, ⟨⟨ms2, h1⟩, h3⟩, h5⟩
        rw [h1]
        exact ⟨⟨_, rfl⟩, (he.mpr ⟨h4, h5⟩).2, h3⟩
    | assertion =>
      rw [hr] at he
      refine ⟨by rintro ⟨⟨ms, h⟩, _⟩; (cases h), fun h => ?_⟩
      obtain ⟨⟨ms, h'⟩, _⟩ := he.mpr ⟨h.1, h.2.2⟩
      cases h'
    | undefined =>
      rw [hr] at he
      refine ⟨by rintro ⟨⟨ms, h⟩, _⟩; (cases h), fun h => ?_⟩
      obtain ⟨⟨ms, h'⟩, _⟩ := he.mpr ⟨h.1, h.2.2⟩
      cases h'

/-- **C100.** A document is read without a word exactly if its document element is `output` and it has no other elements than measurements of
known types with known attributes and nothing but text in them, and `DartMeasurement`s without any attribute. -/
theorem C100_silent (X : Expat) (line why : X.State → Str) (hX : Conforms X) (s n : Str) (l : List (Str × Str)) (f : Forest)
    (h : Document s (.start n l :: f.events ++ [.stop n])) :
    (∃ ms, readXMLM X line why s = ([], .ok ms)) ↔ (n = b!"output" ∧ f.Quiet) := by
  have h1 := C100_messages X line why hX s n l f h
  have h2 := C83_reading X hX s n l f h
  rw [← C100_same_reader X line why] at h2
  rw [← forest_quiet]
  constructor
  · rintro ⟨ms, hms⟩
    rw [hms] at h1 h2
    have h1 := List.append_eq_nil_iff.mp h1.symm
    refine ⟨?_, ?_, h1.2⟩
    · by_contra hn
      rw [rootMessages, if_neg hn] at h1
      cases h1.1
    · cases hr : readForest f with
      | measurements ms' => exact ⟨ms', rfl⟩
      | assertion => rw [hr] at h2; obtain ⟨m, hm⟩ := h2; cases hm
      | undefined => rw [hr] at h2; obtain ⟨m, hm⟩ := h2; cases hm
  · rintro ⟨rfl, ⟨ms, hr⟩, hq⟩
    rw [hq] at h1
    rw [hr] at h2
    refine ⟨ms, ?_⟩
    rw [← Prod.eta (readXMLM X line why s), h1, h2]
    rfl

/-! ## A measurement that is dropped without a word -/

theorem append_events (f g : Forest) : (f.append g).events = f.events ++ g.events := by
  induction f with
  | nil => rfl
  | text s r ih => simp [Forest.append, Forest.events, ih]
  | element n l b r _ ih => simp [Forest.append, Forest.events, ih]

theorem read_append (f g g' : Forest) (h : readForest g = readForest g') : readForest (f.append g) = readForest (f.append g') := by
  induction f with
  | nil => exact h
  | text s r ih => exact ih
  | element n l b r _ ih => simp only [Forest.append, readForest, ih]

theorem messages_append (f g g' : Forest) (h : forestMessages g = forestMessages g') :
    forestMessages (f.append g) = forestMessages (f.append g') := by
  induction f with
  | nil => exact h
  | text s r ih => exact ih
  | element n l b r _ ih => simp only [Forest.append, forestMessages, ih]

/-- **C100, negative.** A `<DartMeasurement>` without any attribute is dropped without a word: wherever it stands in whatever baseline, what
is read and what is said are the same as without it. -/
theorem C100_dropped_silently (X : Expat) (line why : X.State → Str) (hX : Conforms X) (s s' n : Str) (l : List (Str × Str))
    (before after body : Forest) (hbody : body.hasElement = false)
    (h : Document s (.start n l :: (before.append (.element b!"DartMeasurement" [] body after)).events ++ [.stop n]))
    (h' : Document s' (.start n l :: (before.append after).events ++ [.stop n])) :
    (readXMLM X line why s).1 = (readXMLM X line why s').1 ∧
      ∀ ms, readXML X s = .ok ms ↔ readXML X s' = .ok ms := by
  have hsk : readElement b!"DartMeasurement" [] body = .measurements [] := by
    have : skipped body = .measurements [] := by rw [skipped, textThenElement_of_none body hbody false]; rfl
    simpa [readElement, attr] using this
  have hr : readForest (.element b!"DartMeasurement" [] body after) = readForest after := by
    rw [readForest, hsk]
    cases readForest after <;> rfl
  have hm : forestMessages (.element b!"DartMeasurement" [] body after) = forestMessages after := by
    rw [forestMessages, hsk]
    have : elementMessages b!"DartMeasurement" [] body = [] := by
      have := (nestedMessages_nil body false (textThenElement_of_none body hbody false)).mpr hbody
      simpa [elementMessages, attr, attributeMessages] using this
    rw [this]; rfl
  refine ⟨?_, fun ms => ?_⟩
  · rw [C100_messages X line why hX s n l _ h, C100_messages X line why hX s' n l _ h', messages_append before _ _ hm]
  · have h1 := C83_reading X hX s n l _ h
    have h2 := C83_reading X hX s' n l _ h'
    rw [read_append before _ _ hr] at h1
    cases hf : readForest (before.append after) with
    | measurements ms' => rw [hf] at h1 h2; simp only [Outcome] at h1 h2; rw [h1, h2]
    | assertion => rw [hf] at h1 h2; obtain ⟨a, ha⟩ := h1; obtain ⟨b, hb⟩ := h2; rw [ha, hb]; simp
    | undefined => rw [hf] at h1 h2; obtain ⟨a, ha⟩ := h1; obtain ⟨b, hb⟩ := h2; rw [ha, hb]; simp

/-! ## Errors of the parser -/

theorem start_messages (pd : ParseData) (e : Event) : ∀ m ∈ (onEventM pd e).1, b!"XML: " <+: m := by
  have hc : ∀ (l : List (Str × Str)) d, ∀ m ∈ (createLoopM l d).1, b!"XML: " <+: m := by
    intro l
    induction l with
    | nil => intro d m hm; cases hm
    | cons p l ih =>
      obtain ⟨a, v⟩ := p
      intro d m hm
      rw [createLoopM] at hm
      split at hm
      · split at hm
        · rcases List.mem_cons.mp hm with rfl | hm
          · exact ⟨b!"unknow dart measurement type \"" ++ v ++ b!"\"\n", by simp⟩
          · exact ih _ m hm
        · exact ih _ m hm
      · exact ih _ m hm
  have hda : ∀ (l : List (Str × Str)) d, ∀ m ∈ (dataAttributesM l d).1, b!"XML: " <+: m := by
    intro l
    induction l with
    | nil => intro d m hm; cases hm
    | cons p l ih =>
      obtain ⟨a, v⟩ := p
      intro d m hm
      rw [dataAttributesM.eq_def] at hm
      simp only at hm
      split at hm
      · cases d with
        | none => cases hm
        | some d => exact ih _ m hm
      · split at hm
        · exact ih _ m hm
        · split at hm
          · cases d with
            | none => cases hm
            | some d => exact ih _ m hm
          · split at hm
            · cases d with
              | none => cases hm
              | some d => exact ih _ m hm
            · rcases List.mem_cons.mp hm with rfl | hm
              · exact ⟨b!"unknow attribute \"" ++ a ++ b!"\"\n", by simp⟩
              · exact ih _ m hm
  have hfa : ∀ (l : List (Str × Str)) f, ∀ m ∈ (fileAttributesM l f).1, b!"XML: " <+: m := by
    intro l
    induction l with
    | nil => intro d m hm; cases hm
    | cons p l ih =>
      obtain ⟨a, v⟩ := p
      intro d m hm
      rw [fileAttributesM] at hm
      split at hm
      · exact ih _ m hm
      · split at hm
        · exact ih _ m hm
        · rcases List.mem_cons.mp hm with rfl | hm
          · exact ⟨b!"unknow attribute \"" ++ a ++ b!"\"\n", by simp⟩
          · exact ih _ m hm
  cases e with
  | stop el => intro m hm; cases hm
  | text s => intro m hm; cases hm
  | start el l =>
    intro m hm
    simp only [onEventM, onStartM] at hm
    split at hm
    · cases hm
    · split at hm
      · cases hm
      · split at hm
        · split at hm
          · simp only [List.mem_singleton] at hm; subst hm; exact ⟨b!"expected \"output\" document element type\n", rfl⟩
          · cases hm
        · split at hm
          · split at hm
            · rw [said_fst] at hm
              simp only at hm
              rw [said_fst] at hm
              rcases List.mem_append.mp hm with hm | hm
              · exact hc _ _ m hm
              · rcases List.mem_append.mp hm with hm | hm
                · exact hda _ _ m hm
                · split at hm <;> cases hm
            · split at hm
              · exact hfa _ _ m hm
              · simp only [List.mem_singleton] at hm; subst hm; exact ⟨b!"unknown element type \"" ++ el ++ b!"\"\n", by simp⟩
          · simp only [List.mem_singleton] at hm; subst hm; exact ⟨b!"depth is too deep\n", rfl⟩

theorem event_messages (es : List Event) : ∀ pd, ∀ m ∈ (onEventsM pd es).1, b!"XML: " <+: m := by
  induction es with
  | nil => intro pd m hm; cases hm
  | cons e es ih =>
    intro pd m hm
    rw [onEventsM_fst_cons] at hm
    rcases List.mem_append.mp hm with hm | hm
    · exact start_messages pd e m hm
    · cases he : onEvent pd e with
      | error f => rw [he] at hm; cases hm
      | ok pd' => rw [he] at hm; exact ih pd' m hm

/-- **C100.** A file that is rejected by the parser, whatever it is, is never rejected without a word: the last line says "XML:Parse error at
line …".  And if the file was read there is no such line. -/
theorem C100_parse_error (X : Expat) (line why : X.State → Str) (bytes : Str) :
    (readXML X bytes = .error (.thrown "parse error") →
      ∃ (ms : List Str) (st : X.State), (readXMLM X line why bytes).1 = ms ++ [b!"XML:Parse error at line " ++ line st ++ b!": \"" ++ why st ++ b!"\"\n"]) ∧
    (∀ r, readXML X bytes = .ok r → ∀ m ∈ (readXMLM X line why bytes).1, ¬ b!"XML:Parse error" <+: m) := by
  obtain ⟨chunks, last, _, _, h1, h2⟩ := readXMLM_chunked X line why bytes
  rw [h1, h2, concludeM, conclude, said_fst, onEventsM_snd]
  cases he : onEvents {} (feeds X X.init chunks).1 with
  | error f =>
    refine ⟨fun h => ?_, fun r h => by cases h⟩
    simp only [Except.error.injEq] at h
    subst h
    exfalso
    clear * - he
    have key : ∀ (es : List Event) pd, onEvents pd es ≠ .error (.thrown "parse error") := by
      have hd : ∀ (l : List (Str × Str)) d, dataAttributes l d ≠ .error (.thrown "parse error") := by
        intro l
        induction l with
        | nil => intro d h; cases h
        | cons p l ih =>
          obtain ⟨a, v⟩ := p
          intro d h
          rw [dataAttributes.eq_def] at h
          simp only at h
          split at h
          · cases d with
            | none => cases h
            | some d => exact ih _ h
          · split at h
            · exact ih _ h
            · split at h
              · cases d with
                | none => cases h
                | some d => exact ih _ h
              · split at h
                · cases d with
                  | none => cases h
                  | some d => exact ih _ h
                · exact ih _ h
      intro es
      induction es with
      | nil => intro pd h; cases h
      | cons e es ih =>
        intro pd h
        rw [onEvents] at h
        cases hev : onEvent pd e with
        | ok pd' => rw [hev] at h; exact ih pd' h
        | error f =>
          rw [hev] at h
          simp only [Except.error.injEq] at h
          subst h
          cases e with
          | stop el => cases hev
          | text s => cases hev
          | start el l =>
            simp only [onEvent, onStart] at hev
            split at hev
            · cases hev
            · split at hev
              · cases hev
              · split at hev
                · split at hev
                  · cases hda : dataAttributes l (createLoop l none) with
                    | ok d => rw [hda] at hev; cases hev
                    | error f =>
                      rw [hda] at hev
                      simp only [Except.error.injEq] at hev
                      subst hev
                      exact hd _ _ hda
                  · split at hev <;> cases hev
                · cases hev
    exact key _ _ he
  | ok pd =>
    simp only
    cases hok : (feeds X X.init chunks).2 with
    | false =>
      refine ⟨fun _ => ⟨_, last, rfl⟩, fun r h => ?_⟩
      simp only [Bool.false_eq_true, if_false, leave] at h
      split at h <;> cases h
    | true =>
      refine ⟨fun h => ?_, fun r _ m hm hp => ?_⟩
      · simp only [if_true, leave] at h
        split at h <;> cases h
      · simp only [if_true, List.append_nil] at hm
        obtain ⟨a, rfl⟩ := event_messages _ _ m hm
        obtain ⟨b, hb⟩ := hp
        simp at hb

/-! ## Recorded baselines -/

theorem letters_forest (s : Str) (f : Forest) : ∃ g : Forest, g.events = letters s ++ f.events ∧ (f.Quiet → g.Quiet) := by
  induction s with
  | nil => exact ⟨f, rfl, id⟩
  | cons c s ih =>
    obtain ⟨g, hg, hq⟩ := ih
    exact ⟨.text [c] g, by rw [Forest.events, hg]; rfl, hq⟩

theorem letters_only (s : Str) : ∃ g : Forest, g.events = letters s ∧ g.hasElement = false := by
  induction s with
  | nil => exact ⟨.nil, rfl, rfl⟩
  | cons c s ih =>
    obtain ⟨g, hg, hq⟩ := ih
    exact ⟨.text [c] g, by rw [Forest.events, hg]; rfl, hq⟩

theorem attrsOf_quiet (m : Meas) : (m.element = b!"DartMeasurement" ∧ (∀ p ∈ attrsOf m, p.1 ∈ dataKeys) ∧
      (attrsOf m = [] ∨ ∃ t ∈ knownTypes, attr (attrsOf m) b!"type" = some t)) ∨
    (m.element = b!"DartMeasurementFile" ∧ ∀ p ∈ attrsOf m, p.1 ∈ fileKeys) := by
  cases m with
  | file f =>
    refine .inr ⟨rfl, ?_⟩
    simp [attrsOf, fileKeys]
  | data d =>
    refine .inl ⟨rfl, ?_, .inr ⟨d.kind.typeName, ?_, ?_⟩⟩
    · simp only [attrsOf]
      by_cases he : d.encoding = b!"none" <;> by_cases hc : d.compression = b!"none" <;> simp [he, hc, dataKeys]
    · rcases d.kind with _ | _ | (_ | _ | _ | _) <;> decide
    · simp [attrsOf, attr]

theorem lines_forest (ms : List Meas) : ∃ g : Forest, g.events = lines ms ∧ g.Quiet := by
  induction ms with
  | nil => exact ⟨.nil, rfl, trivial⟩
  | cons m ms ih =>
    obtain ⟨g, hg, hq⟩ := ih
    obtain ⟨b, hb, hbq⟩ := letters_only m.content
    obtain ⟨r, hr, hrq⟩ := letters_forest b!"\n" g
    refine ⟨.element m.element (attrsOf m) b r, ?_, hbq, hrq hq, attrsOf_quiet m⟩
    rw [Forest.events, hb, hr, hg]
    simp [lines, eventsOf]

/-- **C100.** A recorded baseline of measurements that stand for themselves in XML is read without a word. -/
theorem C100_recorded (X : Expat) (line why : X.State → Str) (hX : Conforms X) (w : World) (hw : Comment (commentText w)) (cs : List Call)
    (hclean : ∀ c ∈ cs, Clean (recordedMeas c)) :
    readXMLM X line why (header w ++ (cs.map fun c => Spec.line (recordedMeas c)).flatten ++ footer) = ([], .ok (cs.map recordedMeas)) := by
  have hd := recording_document w hw cs hclean
  obtain ⟨g, hg, hq⟩ := lines_forest (cs.map recordedMeas)
  obtain ⟨r, hr, hrq⟩ := letters_forest b!"\n" g
  rw [← hg, ← hr] at hd
  obtain ⟨ms, hms⟩ := (C100_silent X line why hX _ _ _ _ hd).mpr ⟨rfl, hrq hq⟩
  have h2 := C100_same_reader X line why (header w ++ (cs.map fun c => Spec.line (recordedMeas c)).flatten ++ footer)
  rw [read_recording X hX cs w hw hclean, hms] at h2
  simp only [Except.ok.injEq] at h2
  rw [hms, h2]

/-! ## Cases that meet the premises -/

/-- A document with an unknown type, an unknown attribute, an element of another kind with an element inside, under another document element:
five lines are said about it. -/
example (line why : reference.State → Str) : (readXMLM reference line why (declaration ++ b!"\n<!--" ++ b!" x " ++ b!"-->\n<" ++ b!"out" ++ b!">" ++
    (b!"<" ++ b!"DartMeasurement" ++ (b!" " ++ b!"id" ++ b!"=\"" ++ b!"a" ++ b!"\"" ++ (b!" " ++ b!"type" ++ b!"=\"" ++ b!"t" ++ b!"\"" ++ [])) ++ b!">" ++ b!"v" ++
      b!"</" ++ b!"DartMeasurement" ++ b!">" ++
      (b!"<" ++ b!"other" ++ [] ++ b!">" ++
        (b!"<" ++ b!"DartMeasurementFile" ++ [] ++ b!">" ++ b!"f" ++ b!"</" ++ b!"DartMeasurementFile" ++ b!">" ++ []) ++
        b!"</" ++ b!"other" ++ b!">" ++ [])) ++
    b!"</" ++ b!"out" ++ b!">\n")).1 =
    [b!"XML: expected \"output\" document element type\n", b!"XML: unknow dart measurement type \"t\"\n", b!"XML: unknow attribute \"id\"\n",
      b!"XML: unknown element type \"other\"\n", b!"XML: depth is too deep\n"] := by
  have ha : Attrs (b!" " ++ b!"id" ++ b!"=\"" ++ b!"a" ++ b!"\"" ++ (b!" " ++ b!"type" ++ b!"=\"" ++ b!"t" ++ b!"\"" ++ []))
      [(b!"id", b!"a"), (b!"type", b!"t")] :=
    .cons b!"id" b!"a" b!"a" _ _ (by decide) (attrValue_chars _ (by decide))
      (.cons b!"type" b!"t" b!"t" [] [] (by decide) (attrValue_chars _ (by decide)) .nil (by simp)) (by decide)
  rw [C100_messages reference line why reference_conforms _ b!"out" []
    (.element b!"DartMeasurement" [(b!"id", b!"a"), (b!"type", b!"t")] (.text b!"v" .nil)
      (.element b!"other" [] (.element b!"DartMeasurementFile" [] (.text b!"f" .nil) .nil) .nil))
    ⟨b!" x ", b!"out", [], [], _, _, ⟨by decide, noDouble_spec _ (by decide), by decide⟩, by decide, .nil,
      .element _ _ _ _ _ _ _ (by decide) ha (.char 118 _ _ (by decide) .nil)
        (.element _ _ _ _ _ _ _ (by decide) .nil (.element _ _ _ _ _ _ _ (by decide) .nil (.char 102 _ _ (by decide) .nil) .nil) .nil),
      by simp only [List.append_assoc, List.append_nil, List.nil_append], rfl⟩]
  decide +kernel

/-- The document with one file measurement, and the same with a `<DartMeasurement>` before it: both are read as the one measurement, without a word. -/
example (line why : reference.State → Str) :
    let small := declaration ++ b!"\n<!--" ++ b!" x " ++ b!"-->\n<" ++ b!"output" ++ [] ++ b!">" ++
      (b!"<" ++ b!"DartMeasurementFile" ++ [] ++ b!">" ++ b!"f" ++ b!"</" ++ b!"DartMeasurementFile" ++ b!">" ++ []) ++ b!"</" ++ b!"output" ++ b!">\n"
    let large := declaration ++ b!"\n<!--" ++ b!" x " ++ b!"-->\n<" ++ b!"output" ++ [] ++ b!">" ++
      (b!"<" ++ b!"DartMeasurement" ++ [] ++ b!">" ++ b!"v" ++ b!"</" ++ b!"DartMeasurement" ++ b!">" ++
        (b!"<" ++ b!"DartMeasurementFile" ++ [] ++ b!">" ++ b!"f" ++ b!"</" ++ b!"DartMeasurementFile" ++ b!">" ++ [])) ++ b!"</" ++ b!"output" ++ b!">\n"
    (∃ ms, readXMLM reference line why small = ([], .ok ms)) ∧ (readXMLM reference line why large).1 = (readXMLM reference line why small).1 ∧
      ∀ ms, readXML reference large = .ok ms ↔ readXML reference small = .ok ms := by
  have hc : Comment b!" x " := ⟨by decide, noDouble_spec _ (by decide), by decide⟩
  have hfile : Content (b!"<" ++ b!"DartMeasurementFile" ++ [] ++ b!">" ++ b!"f" ++ b!"</" ++ b!"DartMeasurementFile" ++ b!">" ++ []) _ :=
    .element _ _ _ _ _ _ _ (by decide) .nil (.char 102 _ _ (by decide) .nil) .nil
  have h1 := C100_silent reference line why reference_conforms _ b!"output" [] (.element b!"DartMeasurementFile" [] (.text b!"f" .nil) .nil)
    ⟨b!" x ", b!"output", [], [], _, _, hc, by decide, .nil, hfile, rfl, rfl⟩
  have h2 := C100_dropped_silently reference line why reference_conforms _ _ b!"output" [] .nil (.element b!"DartMeasurementFile" [] (.text b!"f" .nil) .nil)
    (.text b!"v" .nil) rfl
    ⟨b!" x ", b!"output", [], [], _, _, hc, by decide, .nil, .element _ _ _ _ _ _ _ (by decide) .nil (.char 118 _ _ (by decide) .nil) hfile, rfl, rfl⟩
    ⟨b!" x ", b!"output", [], [], _, _, hc, by decide, .nil, hfile, rfl, rfl⟩
  refine ⟨h1.mpr ⟨rfl, rfl, trivial, .inr ⟨rfl, ?_⟩⟩, h2⟩
  intro p hp
  cases hp

/-- A file that is rejected: nothing but a comment that is not allowed. -/
example (line why : reference.State → Str) : ∃ (ms : List Str) (st : reference.State),
    (readXMLM reference line why (header { plainWorld with host := b!"xn--caf-dma.example" } ++ [] ++ footer)).1 =
      ms ++ [b!"XML:Parse error at line " ++ line st ++ b!": \"" ++ why st ++ b!"\"\n"] :=
  (C100_parse_error reference line why _).1 (C76_host_name_hyphens reference reference_rejects _ _ (by decide) ⟨b!"xn", b!"caf-dma.example", rfl⟩)

/-- A recording of two measurements. -/
example (line why : reference.State → Str) :
    readXMLM reference line why (header plainWorld ++ (twoCalls.map fun c => Spec.line (recordedMeas c)).flatten ++ footer) =
      ([], .ok (twoCalls.map recordedMeas)) :=
  C100_recorded reference line why reference_conforms plainWorld plain_comment twoCalls two_clean

end Verif.Xml
