import Verif.Xml.TreeSpec
import Verif.Xml.ReadProps

/-!
# Property C83: what a baseline document means
-/

set_option linter.unusedSimpArgs false

namespace Verif.Xml
open Spec Verif.Measurement Verif.Regression

/-- Callbacks for the content of an element form a forest. -/
theorem content_forest {s : Str} {es : List Event} (h : Content s es) : ∃ f : Forest, es = f.events := by
  induction h with
  | nil => exact ⟨.nil, rfl⟩
  | char c r es _ _ ih => obtain ⟨f, rfl⟩ := ih; exact ⟨.text [c] f, rfl⟩
  | crlf r es _ ih => obtain ⟨f, rfl⟩ := ih; exact ⟨.text [10] f, rfl⟩
  | amp r es _ ih => obtain ⟨f, rfl⟩ := ih; exact ⟨.text [38] f, rfl⟩
  | lt r es _ ih => obtain ⟨f, rfl⟩ := ih; exact ⟨.text [60] f, rfl⟩
  | gt r es _ ih => obtain ⟨f, rfl⟩ := ih; exact ⟨.text [62] f, rfl⟩
  | element n as l body es r es' _ _ _ _ ih1 ih2 =>
    obtain ⟨b, rfl⟩ := ih1
    obtain ⟨f, rfl⟩ := ih2
    exact ⟨.element n l b f, rfl⟩

/-- Below the children of the document element everything is passed over. -/
theorem events_deep (f : Forest) : ∀ (d : Int) (ms : List Meas), 3 ≤ d →
    onEvents { depth := d, measurements := ms } f.events = .ok { depth := d, measurements := ms } := by
  induction f with
  | nil => intro d ms _; rfl
  | text s r ih =>
    intro d ms hd
    simp only [Forest.events, onEvents, onEvent, onText]
    rw [if_neg (by omega)]
    exact ih d ms hd
  | element n l b r ihb ihr =>
    intro d ms hd
    have hs : onStart { depth := d, measurements := ms } n l = .ok { depth := d + 1, measurements := ms } := by
      simp only [onStart]
      rw [if_neg (by simp), if_neg (by simp), if_neg (by omega)]
    simp only [Forest.events, List.cons_append, onEvents, onEvent, hs]
    rw [onEvents_append, ihb (d + 1) ms (by omega)]
    simp only [onEvents, onEvent, onEnd, Int.add_sub_cancel]
    exact ihr d ms hd

/-- Inside an element that is no measurement. -/
theorem events_skipped (f : Forest) : ∀ (a : Str) (ms : List Meas),
    (f.textThenElement (!a.isEmpty) = true → ∃ m, onEvents { depth := 2, data := a, measurements := ms } f.events = .error (.assertFail m)) ∧
    (f.textThenElement (!a.isEmpty) = false → ∃ a', onEvents { depth := 2, data := a, measurements := ms } f.events =
      .ok { depth := 2, data := a', measurements := ms }) := by
  induction f with
  | nil => intro a ms; exact ⟨fun h => by simp [Forest.textThenElement] at h, fun _ => ⟨a, rfl⟩⟩
  | text s r ih =>
    intro a ms
    have := ih (a ++ s) ms
    have hb : (!(a ++ s).isEmpty) = ((!a.isEmpty) || (!s.isEmpty)) := by cases a <;> cases s <;> rfl
    rw [hb] at this
    simp only [Forest.textThenElement, Forest.events, onEvents, onEvent, onText, if_pos]
    exact this
  | element n l b r ihb ihr =>
    intro a ms
    cases a with
    | cons c a =>
      refine ⟨fun _ => ⟨"pd.data.length() == 0", ?_⟩, fun h => by simp [Forest.textThenElement] at h⟩
      simp [Forest.events, onEvents, onEvent, onStart]
    | nil =>
      have hs : onStart { depth := 2, measurements := ms } n l = .ok { depth := 3, measurements := ms } := by
        simp [onStart]
      have hsteps : onEvents { depth := 2, data := [], measurements := ms } (Forest.element n l b r).events =
          onEvents { depth := 2, data := [], measurements := ms } r.events := by
        simp only [Forest.events, List.cons_append, onEvents, onEvent, hs]
        rw [onEvents_append, events_deep b 3 ms (by omega)]
        simp only [onEvents, onEvent, onEnd]
        rfl
      rw [hsteps]
      have := ihr [] ms
      simpa [Forest.textThenElement] using this

/-- Inside a measurement. -/
theorem events_measured (f : Forest) (m : Meas) : ∀ (a : Str) (ms : List Meas),
    (f.hasElement = true → ∃ w, onEvents { depth := 2, data := a, m := some m, measurements := ms } f.events = .error (.assertFail w)) ∧
    (f.hasElement = false → onEvents { depth := 2, data := a, m := some m, measurements := ms } f.events =
      .ok { depth := 2, data := a ++ f.chars, m := some m, measurements := ms }) := by
  induction f with
  | nil => intro a ms; exact ⟨fun h => by simp [Forest.hasElement] at h, fun _ => by simp [Forest.events, Forest.chars, onEvents]⟩
  | text s r ih =>
    intro a ms
    have := ih (a ++ s) ms
    simp only [Forest.hasElement, Forest.events, Forest.chars, onEvents, onEvent, onText, if_pos, ← List.append_assoc]
    exact this
  | element n l b r _ _ =>
    intro a ms
    refine ⟨fun _ => ⟨"!pd.m", ?_⟩, fun h => by simp [Forest.hasElement] at h⟩
    simp [Forest.events, onEvents, onEvent, onStart]

theorem create_kindOf (t : Str) : (createDataMeasurement t).getD { kind := .plain } = { kind := kindOf t } := by
  by_cases h1 : t = b!"text/plain"
  · subst h1; rfl
  by_cases h2 : t = b!"text/string"
  · subst h2; rfl
  by_cases h3 : t = b!"numeric/integer"
  · subst h3; rfl
  by_cases h4 : t = b!"numeric/float"
  · subst h4; rfl
  by_cases h5 : t = b!"numeric/double"
  · subst h5; rfl
  by_cases h6 : t = b!"numeric/boolean"
  · subst h6; rfl
  have e : createDataMeasurement t = none := by
    rw [createDataMeasurement, if_neg h1, if_neg h2, if_neg h3, if_neg h4, if_neg h5, if_neg h6]
  rw [e, kindOf]
  have : (([.plain, .string, .num .integer, .num .float, .num .double, .num .boolean] : List Kind).find? fun k => k.typeName = t) = none := by
    rw [List.find?_eq_none]
    intro k _ hk
    have hk := of_decide_eq_true hk
    rcases k with _ | _ | (_ | _ | _ | _) <;> simp only [Kind.typeName] at hk
    · exact h1 hk.symm
    · exact h2 hk.symm
    · exact h3 hk.symm
    · exact h4 hk.symm
    · exact h5 hk.symm
    · exact h6 hk.symm
  rw [this]; rfl

theorem attr_cons (a v k : Str) (l : List (Str × Str)) : attr ((a, v) :: l) k = if a = k then some v else attr l k := by
  simp only [attr, List.find?_cons]
  by_cases h : a = k <;> simp [h]

theorem createLoop_attr (l : List (Str × Str)) (hn : (l.map Prod.fst).Nodup) : ∀ d, createLoop l d =
    match attr l b!"type" with
    | some t => some { kind := kindOf t }
    | none => d := by
  induction l with
  | nil => intro d; rfl
  | cons p l ih =>
    obtain ⟨a, v⟩ := p
    intro d
    simp only [List.map_cons, List.nodup_cons] at hn
    rw [createLoop, attr_cons]
    by_cases h : a = b!"type"
    · rw [if_pos h, if_pos h, ih hn.2, create_kindOf]
      have : attr l b!"type" = none := by
        simp only [attr, Option.map_eq_none_iff, List.find?_eq_none, decide_eq_true_eq]
        intro p hp he
        exact hn.1 (by rw [h, ← he]; exact List.mem_map_of_mem hp)
      rw [this]
    · rw [if_neg h, if_neg h]; exact ih hn.2 d

theorem attr_none_of_notMem {l : List (Str × Str)} {k : Str} (h : k ∉ l.map Prod.fst) : attr l k = none := by
  simp only [attr, Option.map_eq_none_iff, List.find?_eq_none, decide_eq_true_eq]
  intro p hp he
  exact h (by rw [← he]; exact List.mem_map_of_mem hp)

theorem dataAttributes_attr (l : List (Str × Str)) (hn : (l.map Prod.fst).Nodup) : ∀ d : DataM, dataAttributes l (some d) =
    .ok (some { d with name := (attr l b!"name").getD d.name, encoding := (attr l b!"encoding").getD d.encoding, compression := (attr l b!"compression").getD d.compression }) := by
  have e1 : (b!"name" : Str) ≠ b!"encoding" := by decide
  have e2 : (b!"name" : Str) ≠ b!"compression" := by decide
  have e3 : (b!"encoding" : Str) ≠ b!"compression" := by decide
  have e4 : (b!"type" : Str) ≠ b!"name" := by decide
  have e5 : (b!"type" : Str) ≠ b!"encoding" := by decide
  have e6 : (b!"type" : Str) ≠ b!"compression" := by decide
  induction l with
  | nil => intro d; rfl
  | cons p l ih =>
    obtain ⟨a, v⟩ := p
    intro d
    simp only [List.map_cons, List.nodup_cons] at hn
    rw [dataAttributes, attr_cons, attr_cons, attr_cons]
    by_cases h1 : a = b!"name"
    · subst h1
      simp only [if_true, if_neg e1, if_neg e2]
      rw [ih hn.2, attr_none_of_notMem hn.1]; rfl
    · rw [if_neg h1, if_neg h1]
      by_cases h2 : a = b!"type"
      · subst h2
        simp only [if_true, if_neg e5, if_neg e6]
        rw [ih hn.2]
      · rw [if_neg h2]
        by_cases h3 : a = b!"encoding"
        · subst h3
          simp only [if_true, if_neg e3]
          rw [ih hn.2, attr_none_of_notMem hn.1]; rfl
        · rw [if_neg h3, if_neg h3]
          by_cases h4 : a = b!"compression"
          · subst h4
            simp only [if_true]
            rw [ih hn.2, attr_none_of_notMem hn.1]; rfl
          · rw [if_neg h4, if_neg h4, ih hn.2]

theorem dataAttributes_none (l : List (Str × Str)) (h : ∀ p ∈ l, ¬ (p.1 = b!"name" ∨ p.1 = b!"encoding" ∨ p.1 = b!"compression")) :
    dataAttributes l none = .ok none := by
  induction l with
  | nil => rfl
  | cons p l ih =>
    obtain ⟨a, v⟩ := p
    have := h (a, v) (by simp)
    simp only [not_or] at this
    rw [dataAttributes, if_neg this.1, if_neg this.2.1, if_neg this.2.2]
    simp only [ite_self]
    exact ih fun p hp => h p (List.mem_cons_of_mem _ hp)

theorem fileAttributes_attr (l : List (Str × Str)) (hn : (l.map Prod.fst).Nodup) : ∀ f : FileM, fileAttributes l f =
    { f with name := (attr l b!"name").getD f.name, type := (attr l b!"type").getD f.type } := by
  have e1 : (b!"name" : Str) ≠ b!"type" := by decide
  induction l with
  | nil => intro d; rfl
  | cons p l ih =>
    obtain ⟨a, v⟩ := p
    intro d
    simp only [List.map_cons, List.nodup_cons] at hn
    rw [fileAttributes, attr_cons, attr_cons]
    by_cases h1 : a = b!"name"
    · subst h1
      simp only [if_true, if_neg e1]
      rw [ih hn.2, attr_none_of_notMem hn.1]; rfl
    · rw [if_neg h1, if_neg h1]
      by_cases h2 : a = b!"type"
      · subst h2
        simp only [if_true]
        rw [ih hn.2, attr_none_of_notMem hn.1]; rfl
      · rw [if_neg h2, if_neg h2, ih hn.2]

/-- All elements of a forest have attributes of different names. -/
def Forest.Distinct : Forest → Prop
  | .nil => True
  | .text _ r => Forest.Distinct r
  | .element _ l b r => (l.map Prod.fst).Nodup ∧ Forest.Distinct b ∧ Forest.Distinct r

theorem attrs_nodup {as : Str} {l : List (Str × Str)} (h : Attrs as l) : (l.map Prod.fst).Nodup := by
  induction h with
  | nil => exact List.nodup_nil
  | cons n raw v rest l _ _ _ hn ih => exact List.nodup_cons.mpr ⟨hn, ih⟩

theorem content_nodup {s : Str} {es : List Event} (h : Content s es) : ∀ n l, Event.start n l ∈ es → (l.map Prod.fst).Nodup := by
  induction h with
  | nil => intro n l h; cases h
  | char _ _ _ _ _ ih => intro n l h; rcases List.mem_cons.mp h with h | h; cases h; exact ih n l h
  | crlf _ _ _ ih => intro n l h; rcases List.mem_cons.mp h with h | h; cases h; exact ih n l h
  | amp _ _ _ ih => intro n l h; rcases List.mem_cons.mp h with h | h; cases h; exact ih n l h
  | lt _ _ _ ih => intro n l h; rcases List.mem_cons.mp h with h | h; cases h; exact ih n l h
  | gt _ _ _ ih => intro n l h; rcases List.mem_cons.mp h with h | h; cases h; exact ih n l h
  | element m as l' body es r es' _ has _ _ ih1 ih2 =>
    intro n l h
    simp only [List.cons_append, List.mem_cons, List.mem_append, reduceCtorEq, false_or] at h
    rcases h with h | h | h
    · cases h; exact attrs_nodup has
    · exact ih1 n l h
    · exact ih2 n l h

theorem forest_distinct (f : Forest) (h : ∀ n l, Event.start n l ∈ f.events → (l.map Prod.fst).Nodup) : Forest.Distinct f := by
  induction f with
  | nil => trivial
  | text s r ih => exact ih fun n l hl => h n l (List.mem_cons_of_mem _ hl)
  | element n l b r ihb ihr =>
    refine ⟨h n l (by simp [Forest.events]), ihb fun n l hl => h n l ?_, ihr fun n l hl => h n l ?_⟩ <;>
      simp [Forest.events, hl]

/-- Leaving out what a failed run would leave: the outcome of callbacks. -/
def Result (r : Except Fault ParseData) (ms : List Meas) : Read → Prop
  | .measurements ms' => r = .ok { depth := 1, measurements := ms ++ ms' }
  | .assertion => ∃ m, r = .error (.assertFail m)
  | .undefined => IsUB r

theorem element_read (n : Str) (l : List (Str × Str)) (hl : (l.map Prod.fst).Nodup) (b : Forest) (ms : List Meas) :
    Result (onEvents { depth := 1, measurements := ms } (.start n l :: b.events ++ [.stop n])) ms (readElement n l b) := by
  have hskip : onStart { depth := 1, measurements := ms } n l = .ok { depth := 2, measurements := ms } →
      Result (onEvents { depth := 1, measurements := ms } (.start n l :: b.events ++ [.stop n])) ms (skipped b) := by
    intro hs
    rw [List.cons_append, onEvents]
    simp only [onEvent, hs]
    obtain ⟨h1, h2⟩ := events_skipped b [] ms
    simp only [List.isEmpty_nil, Bool.not_true] at h1 h2
    rw [onEvents_append, skipped]
    by_cases ht : b.textThenElement false = true
    · obtain ⟨m, hm⟩ := h1 ht
      rw [if_pos ht, hm]
      exact ⟨m, rfl⟩
    · obtain ⟨a', hm⟩ := h2 (by simpa using ht)
      rw [if_neg ht, hm]
      simp [Result, onEvents, onEvent, onEnd]
  have hmeas : ∀ g : Str → Meas, (∀ t, setContent t (g []) = g t) →
      onStart { depth := 1, measurements := ms } n l = .ok { depth := 2, m := some (g []), measurements := ms } →
      Result (onEvents { depth := 1, measurements := ms } (.start n l :: b.events ++ [.stop n])) ms (measured b g) := by
    intro g hg hs
    rw [List.cons_append, onEvents]
    simp only [onEvent, hs]
    obtain ⟨h1, h2⟩ := events_measured b (g []) [] ms
    rw [onEvents_append, measured]
    by_cases ht : b.hasElement = true
    · obtain ⟨m, hm⟩ := h1 ht
      rw [if_pos ht, hm]
      exact ⟨m, rfl⟩
    · have hm := h2 (by simpa using ht)
      rw [if_neg ht, hm]
      simp [Result, onEvents, onEvent, onEnd, hg]
  rw [readElement]
  by_cases hn1 : n = b!"DartMeasurement"
  · rw [if_pos hn1]
    cases ht : attr l b!"type" with
    | some t =>
      apply hmeas
      · intro t; rfl
      · simp only [onStart, hn1, createLoop_attr l hl, ht, dataAttributes_attr l hl]
        simp
    | none =>
      simp only
      by_cases hx : (attr l b!"name").isSome ∨ (attr l b!"encoding").isSome ∨ (attr l b!"compression").isSome
      · rw [if_pos hx]
        have hex : ∃ p ∈ l, p.1 = b!"name" ∨ p.1 = b!"encoding" ∨ p.1 = b!"compression" := by
          have key : ∀ k, (attr l k).isSome → ∃ p ∈ l, p.1 = k := by
            intro k hk
            by_cases hm : k ∈ l.map Prod.fst
            · obtain ⟨p, hp, he⟩ := List.mem_map.mp hm; exact ⟨p, hp, he⟩
            · rw [attr_none_of_notMem hm] at hk; cases hk
          rcases hx with h | h | h
          · obtain ⟨p, hp, he⟩ := key _ h; exact ⟨p, hp, Or.inl he⟩
          · obtain ⟨p, hp, he⟩ := key _ h; exact ⟨p, hp, Or.inr (Or.inl he)⟩
          · obtain ⟨p, hp, he⟩ := key _ h; exact ⟨p, hp, Or.inr (Or.inr he)⟩
        obtain ⟨w, hw⟩ := dataAttributes_null l hex
        have hs : onStart { depth := 1, measurements := ms } n l = .error (.ub w) := by
          simp only [onStart, hn1, createLoop_attr l hl, ht, hw]; simp
        rw [List.cons_append, onEvents]
        simp only [onEvent, hs]
        exact ⟨w, rfl⟩
      · rw [if_neg hx]
        apply hskip
        have hno : dataAttributes l none = .ok none := by
          apply dataAttributes_none
          intro p hp
          simp only [not_or, Option.not_isSome_iff_eq_none] at hx ⊢
          have key : ∀ k, attr l k = none → p.1 ≠ k := by
            intro k hk he
            simp only [attr, Option.map_eq_none_iff, List.find?_eq_none, decide_eq_true_eq] at hk
            exact hk p hp he
          exact ⟨key _ hx.1, key _ hx.2.1, key _ hx.2.2⟩
        simp only [onStart, hn1, createLoop_attr l hl, ht, hno]
        simp
  · rw [if_neg hn1]
    by_cases hn2 : n = b!"DartMeasurementFile"
    · rw [if_pos hn2]
      apply hmeas
      · intro t; rfl
      · simp only [onStart, fileAttributes_attr l hl]
        simp [hn2]
    · rw [if_neg hn2]
      apply hskip
      simp [onStart, hn1, hn2]

theorem forest_read (f : Forest) (h : Forest.Distinct f) : ∀ ms : List Meas,
    Result (onEvents { depth := 1, measurements := ms } f.events) ms (readForest f) := by
  induction f with
  | nil => intro ms; simp [Forest.events, readForest, Result, onEvents]
  | text s r ih =>
    intro ms
    simp only [Forest.events, onEvents, onEvent, onText]
    rw [if_neg (by simp)]
    exact ih h ms
  | element n l b r _ ihr =>
    intro ms
    have he := element_read n l h.1 b ms
    have hsplit : (Forest.element n l b r).events = (.start n l :: b.events ++ [.stop n]) ++ r.events := by
      simp [Forest.events]
    rw [hsplit, onEvents_append, readForest]
    cases hr : readElement n l b with
    | measurements ms1 =>
      rw [hr] at he
      simp only [Result] at he
      rw [he]
      have := ihr h.2.2 (ms ++ ms1)
      simp only
      cases hr2 : readForest r with
      | measurements ms2 => rw [hr2] at this; simp only [Result] at this ⊢; rw [this, List.append_assoc]
      | assertion => rw [hr2] at this; exact this
      | undefined => rw [hr2] at this; exact this
    | assertion => rw [hr] at he; obtain ⟨m, hm⟩ := he; rw [hm]; exact ⟨m, rfl⟩
    | undefined => rw [hr] at he; obtain ⟨m, hm⟩ := he; rw [hm]; exact ⟨m, rfl⟩

/-- **C83.** What a baseline document means.  For every document of the grammar, however its text is cut into chunks: the measurements read are
those of the elements `DartMeasurement` and `DartMeasurementFile` that are children of the document element, in order, each with the
attributes and the text it has, an unknown type read as plain text; everything else is passed over - except that a
`DartMeasurement` without type but with another attribute is undefined behaviour, and that a child of a measurement, or text before a
child of another element, fails an assertion. -/
theorem C83_reading (X : Expat) (hX : Conforms X) (s n : Str) (l : List (Str × Str)) (f : Forest)
    (h : Document s (.start n l :: f.events ++ [.stop n])) : Outcome (readXML X s) (readForest f) := by
  rw [readXML_document X hX s _ h]
  obtain ⟨c, n', as, l', body, bes, _, _, has, hbody, _, he⟩ := h
  have hf : f.events = bes := by
    simp only [List.cons_append, List.cons.injEq] at he
    have := congrArg List.dropLast he.2
    simpa using this
  subst hf
  have hread := forest_read f (forest_distinct f (content_nodup hbody)) []
  have h0 : onStart {} n l = .ok { depth := 1 } := by simp [onStart]
  rw [List.cons_append, onEvents]
  simp only [onEvent, h0]
  rw [onEvents_append]
  cases hr : readForest f with
  | measurements ms =>
    rw [hr] at hread
    simp only [Result, List.nil_append] at hread
    simp [hread, onEvents, onEvent, onEnd, leave, Outcome]
  | assertion => rw [hr] at hread; obtain ⟨m, hm⟩ := hread; rw [hm]; exact ⟨m, rfl⟩
  | undefined => rw [hr] at hread; obtain ⟨m, hm⟩ := hread; rw [hm]; exact ⟨m, rfl⟩

/-- **C83.** The theorem above speaks about every document: its callbacks are those of some content. -/
theorem C83_every_document (s : Str) (es : List Event) (h : Document s es) :
    ∃ n l f, es = .start n l :: Forest.events f ++ [.stop n] := by
  obtain ⟨c, n, as, l, body, bes, _, _, _, hbody, _, rfl⟩ := h
  obtain ⟨f, rfl⟩ := content_forest hbody
  exact ⟨n, l, f, rfl⟩

/-- The premises of C83 are met by a document with a measurement of an unknown type and an element of another kind that has a measurement
inside: the first is read as plain text, the second is passed over. -/
example : readXML reference (declaration ++ b!"\n<!--" ++ b!" x " ++ b!"-->\n<" ++ b!"output" ++ b!">" ++
    (b!"<" ++ b!"DartMeasurement" ++ (b!" " ++ b!"name" ++ b!"=\"" ++ b!"a" ++ b!"\"" ++ (b!" " ++ b!"type" ++ b!"=\"" ++ b!"t" ++ b!"\"" ++ [])) ++ b!">" ++ b!"v" ++
      b!"</" ++ b!"DartMeasurement" ++ b!">" ++
      (b!"<" ++ b!"other" ++ [] ++ b!">" ++
        (b!"<" ++ b!"DartMeasurementFile" ++ [] ++ b!">" ++ b!"f" ++ b!"</" ++ b!"DartMeasurementFile" ++ b!">" ++ []) ++
        b!"</" ++ b!"other" ++ b!">" ++ [])) ++
    b!"</" ++ b!"output" ++ b!">\n") =
    .ok [.data { kind := .plain, name := b!"a", content := b!"v" }] := by
  have ha : Attrs (b!" " ++ b!"name" ++ b!"=\"" ++ b!"a" ++ b!"\"" ++ (b!" " ++ b!"type" ++ b!"=\"" ++ b!"t" ++ b!"\"" ++ []))
      [(b!"name", b!"a"), (b!"type", b!"t")] :=
    .cons b!"name" b!"a" b!"a" _ _ (by decide) (attrValue_chars _ (by decide))
      (.cons b!"type" b!"t" b!"t" [] [] (by decide) (attrValue_chars _ (by decide)) .nil (by simp)) (by decide)
  exact C83_reading reference reference_conforms _ b!"output" []
    (.element b!"DartMeasurement" [(b!"name", b!"a"), (b!"type", b!"t")] (.text b!"v" .nil)
      (.element b!"other" [] (.element b!"DartMeasurementFile" [] (.text b!"f" .nil) .nil) .nil))
    ⟨b!" x ", b!"output", [], [], _, _, ⟨by decide, noDouble_spec _ (by decide), by decide⟩, by decide, .nil,
      .element _ _ _ _ _ _ _ (by decide) ha (.char 118 _ _ (by decide) .nil)
        (.element _ _ _ _ _ _ _ (by decide) .nil (.element _ _ _ _ _ _ _ (by decide) .nil (.char 102 _ _ (by decide) .nil) .nil) .nil),
      by simp only [List.append_assoc, List.append_nil, List.nil_append], rfl⟩

end Verif.Xml
