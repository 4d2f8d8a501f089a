import Verif.Xml.NameSpec
import Verif.Xml.ReadProps

/-!
# C26: which names read back
-/

set_option linter.unusedSimpArgs false

namespace Verif.Xml
open Verif.Measurement Verif.Measurement.Spec Verif.Regression Spec

/-! ## Values -/

theorem _root_.Verif.Xml.Spec.RawValue.len {r v : Str} (h : RawValue r v) :
    v.length ≤ r.length ∧ (38 ∈ r → v.length < r.length) ∧ (38 ∉ r → ∀ c ∈ v, c ∈ r ∨ c = 32) := by
  induction h with
  | nil => simp
  | char c r v hc _ ih =>
    refine ⟨by simp; omega, ?_, ?_⟩
    · intro h
      simp only [List.mem_cons] at h
      rcases h with h | h
      · exact absurd h.symm hc
      · have := ih.2.1 h; simp; omega
    · intro h x hx
      simp only [List.mem_cons, not_or] at h hx ⊢
      rcases hx with rfl | hx
      · exact .inl (.inl rfl)
      · rcases ih.2.2 h.2 x hx with h | h
        · exact .inl (.inr h)
        · exact .inr h
  | blank b r v hb hbl _ ih =>
    have : 0 < b.length := List.length_pos_iff.mpr hb
    refine ⟨by simp; omega, ?_, ?_⟩
    · intro h
      simp only [List.mem_append] at h
      rcases h with h | h
      · rcases hbl _ h with h | h | h | h <;> exact absurd h (by decide)
      · have := ih.2.1 h; simp; omega
    · intro h x hx
      simp only [List.mem_append, not_or, List.mem_cons] at h hx ⊢
      rcases hx with rfl | hx
      · exact .inr rfl
      · rcases ih.2.2 h.2 x hx with h | h
        · exact .inl (.inr h)
        · exact .inr h
  | ref n w r v hw _ ih =>
    refine ⟨by simp; omega, fun _ => by simp; omega, fun h => absurd (by simp) h⟩

theorem _root_.Verif.Xml.Spec.RawValue.append {r v r' v' : Str} (h : RawValue r v) (h' : RawValue r' v') : RawValue (r ++ r') (v ++ v') := by
  induction h with
  | nil => exact h'
  | char c r v hc _ ih => exact .char c _ _ hc ih
  | blank b r v hb hbl _ ih => rw [List.append_assoc]; exact .blank b _ _ hb hbl ih
  | ref n w r v hw _ ih => simpa [List.append_assoc] using RawValue.ref n w _ _ hw ih

theorem blank_no60 {b : Str} (h : Blank b) : 60 ∉ b := by
  intro hc
  rcases h _ hc with h | h | h | h <;> exact absurd h (by decide)

/-- What the start tag grammar says about one attribute. -/
theorem _root_.Verif.Xml.Spec.TagAttrs.value {t : Str} {l : List (Str × Str)} (h : TagAttrs t l) :
    60 ∉ t ∧ ∀ n v, (n, v) ∈ l → ∃ a q raw b, t = a ++ q :: (raw ++ q :: b) ∧ (q = 34 ∨ q = 39) ∧ q ∉ raw ∧ 60 ∉ raw ∧ RawValue raw v := by
  induction h with
  | done b hb => exact ⟨blank_no60 hb, by simp⟩
  | empty b hb => exact ⟨by simp [blank_no60 hb], by simp⟩
  | attr b n b1 b2 q raw v rest l hb hn hb1 hb2 hq hqr hr hv _ ih =>
    refine ⟨?_, ?_⟩
    · have : q ≠ 60 := by rcases hq with rfl | rfl <;> decide
      simp [blank_no60 hb, hn, blank_no60 hb1, blank_no60 hb2, hr, ih.1, this.symm]
    · intro n' v' hm
      simp only [List.mem_cons, Prod.mk.injEq] at hm
      rcases hm with ⟨rfl, rfl⟩ | hm
      · exact ⟨b ++ n' ++ b1 ++ b!"=" ++ b2, q, raw, rest, by simp [List.append_assoc], hq, hqr, hr, hv⟩
      · obtain ⟨a, q', raw', b', e, h⟩ := ih.2 n' v' hm
        exact ⟨b ++ n ++ b1 ++ b!"=" ++ b2 ++ [q] ++ raw ++ [q] ++ a, q', raw', b', by rw [e]; simp [List.append_assoc], h⟩

/-! ## Where a tag can be -/

/-- A piece that begins with `<` and has no other lies on one side of a `<`. -/
theorem piece_side (u pre post A B : Str) (hu : 60 ∉ u) (h : pre ++ 60 :: (u ++ post) = A ++ 60 :: B) :
    (∃ post', A = pre ++ 60 :: (u ++ post')) ∨ (∃ pre', 60 :: B = pre' ++ 60 :: (u ++ post)) := by
  rcases List.append_eq_append_iff.mp h with ⟨as, e1, e2⟩ | ⟨bs, e1, e2⟩
  · -- A = pre ++ as
    cases as with
    | nil => exact .inr ⟨[], by simpa using e2.symm⟩
    | cons x as =>
      simp only [List.cons_append, List.cons.injEq] at e2
      obtain ⟨rfl, e2⟩ := e2
      rcases List.append_eq_append_iff.mp e2 with ⟨cs, f1, f2⟩ | ⟨ds, f1, f2⟩
      · exact .inl ⟨cs, by rw [e1, f1]⟩
      · cases ds with
        | nil =>
          simp only [List.append_nil] at f1
          exact .inl ⟨[], by rw [e1, f1]; simp⟩
        | cons y ds =>
          simp only [List.cons_append, List.cons.injEq] at f2
          obtain ⟨rfl, _⟩ := f2
          exact absurd (by rw [f1]; simp) hu
  · exact .inr ⟨bs, e2⟩

/-- A piece that ends with `>` does not reach into text without. -/
theorem piece_before (pre u post A C : Str) (hC : 62 ∉ C) (h : pre ++ (u ++ 62 :: post) = A ++ C) : ∃ post', A = pre ++ (u ++ 62 :: post') := by
  rw [← List.append_assoc] at h
  rcases List.append_eq_append_iff.mp h with ⟨as, e1, e2⟩ | ⟨bs, e1, e2⟩
  · cases as with
    | nil =>
      simp only [List.nil_append] at e2
      exact absurd (by rw [← e2]; simp) hC
    | cons x as =>
      simp only [List.cons_append, List.cons.injEq] at e2
      obtain ⟨rfl, _⟩ := e2
      exact ⟨as, by rw [e1]; simp⟩
  · exact absurd (by rw [e2]; simp) hC

/-- What is quoted in a start tag for a name with a special character is not that name. -/
theorem quoted_not_name (P N S α β raw v : Str) (q : UInt8) (hP : 34 ∉ P ∧ 39 ∉ P) (hS : 38 ∉ S ∧ 39 ∉ S ∧ 60 ∉ S)
    (h : α ++ q :: (raw ++ q :: β) = P ++ 34 :: (N ++ 34 :: S)) (hq : q = 34 ∨ q = 39) (hqr : q ∉ raw) (hr : 60 ∉ raw) (hv : RawValue raw v)
    (hN : 34 ∈ N ∨ 38 ∈ N ∨ 60 ∈ N) : v ≠ N := by
  rintro rfl
  obtain ⟨h1, h2, h3⟩ := hv.len
  -- the opening quote
  rcases List.append_eq_append_iff.mp h with ⟨as, e1, e2⟩ | ⟨bs, e1, e2⟩
  · -- P = α ++ as
    cases as with
    | cons x as =>
      simp only [List.cons_append, List.cons.injEq] at e2
      obtain ⟨rfl, _⟩ := e2
      rcases hq with rfl | rfl
      · exact hP.1 (by rw [e1]; simp)
      · exact hP.2 (by rw [e1]; simp)
    | nil =>
      simp only [List.nil_append, List.cons.injEq] at e2
      obtain ⟨rfl, e2⟩ := e2
      rcases List.append_eq_append_iff.mp e2 with ⟨cs, f1, f2⟩ | ⟨ds, f1, f2⟩
      · cases cs with
        | nil =>
          simp only [List.append_nil] at f1
          subst f1
          rcases hN with hN | hN | hN
          · exact hqr hN
          · exact absurd (h2 hN) (by omega)
          · exact hr hN
        | cons x cs => rw [f1] at h1; simp at h1
      · cases ds with
        | nil =>
          simp only [List.append_nil] at f1
          subst f1
          rcases hN with hN | hN | hN
          · exact hqr hN
          · exact absurd (h2 hN) (by omega)
          · exact hr hN
        | cons y ds =>
          simp only [List.cons_append, List.cons.injEq] at f2
          obtain ⟨rfl, _⟩ := f2
          exact hqr (by rw [f1]; simp)
  · -- the opening quote is in the name or behind
    cases bs with
    | nil =>
      simp only [List.nil_append, List.cons.injEq] at e2
      obtain ⟨rfl, e2⟩ := e2
      rcases List.append_eq_append_iff.mp e2.symm with ⟨cs, f1, f2⟩ | ⟨ds, f1, f2⟩
      · cases cs with
        | nil =>
          simp only [List.append_nil] at f1
          subst f1
          rcases hN with hN | hN | hN
          · exact hqr hN
          · exact absurd (h2 hN) (by omega)
          · exact hr hN
        | cons x cs => rw [f1] at h1; simp at h1
      · cases ds with
        | nil =>
          simp only [List.append_nil] at f1
          subst f1
          rcases hN with hN | hN | hN
          · exact hqr hN
          · exact absurd (h2 hN) (by omega)
          · exact hr hN
        | cons y ds =>
          simp only [List.cons_append, List.cons.injEq] at f2
          obtain ⟨rfl, _⟩ := f2
          exact hqr (by rw [f1]; simp)
    | cons x bs =>
      simp only [List.cons_append, List.cons.injEq] at e2
      obtain ⟨rfl, e2⟩ := e2
      rcases List.append_eq_append_iff.mp e2 with ⟨cs, f1, f2⟩ | ⟨ds, f1, f2⟩
      · -- behind: bs = v ++ cs
        have hraw : ∀ c ∈ raw, c ∈ S := by
          cases cs with
          | nil =>
            simp only [List.nil_append, List.cons.injEq] at f2
            obtain ⟨_, f2⟩ := f2
            intro c hc; rw [f2]; simp [hc]
          | cons y cs =>
            simp only [List.cons_append, List.cons.injEq] at f2
            obtain ⟨_, f2⟩ := f2
            intro c hc; rw [f2]; simp [hc]
        have hq34 : q = 34 := by
          rcases hq with rfl | rfl
          · rfl
          · exfalso
            cases cs with
            | nil =>
              simp only [List.nil_append, List.cons.injEq] at f2
              exact absurd f2.1 (by decide)
            | cons y cs =>
              simp only [List.cons_append, List.cons.injEq] at f2
              exact hS.2.1 (by rw [f2.2]; simp)
        subst hq34
        have h38 : 38 ∉ raw := fun h => hS.1 (hraw _ h)
        rcases hN with hN | hN | hN
        · rcases h3 h38 _ hN with h | h
          · exact hqr h
          · exact absurd h (by decide)
        · rcases h3 h38 _ hN with h | h
          · exact h38 h
          · exact absurd h (by decide)
        · rcases h3 h38 _ hN with h | h
          · exact hr h
          · exact absurd h (by decide)
      · -- v = bs ++ ds, the quote inside
        cases ds with
        | nil =>
          -- the opening quote is the one behind the name
          simp only [List.nil_append, List.cons.injEq] at f2
          obtain ⟨rfl, f2⟩ := f2
          have hraw : ∀ c ∈ raw, c ∈ S := by intro c hc; rw [← f2]; simp [hc]
          have h38 : 38 ∉ raw := fun h => hS.1 (hraw _ h)
          rcases hN with hN | hN | hN
          · rcases h3 h38 _ hN with h | h
            · exact hqr h
            · exact absurd h (by decide)
          · rcases h3 h38 _ hN with h | h
            · exact h38 h
            · exact absurd h (by decide)
          · rcases h3 h38 _ hN with h | h
            · exact hr h
            · exact absurd h (by decide)
        | cons y ds =>
          simp only [List.cons_append, List.cons.injEq] at f2
          obtain ⟨rfl, f2⟩ := f2
          -- raw ends inside the name
          have : raw.length ≤ ds.length := by
            rcases List.append_eq_append_iff.mp f2 with ⟨gs, g1, _⟩ | ⟨gs, g1, g2⟩
            · rw [g1]; simp
            · cases gs with
              | nil => rw [g1]; simp
              | cons z gs =>
                simp only [List.cons_append, List.cons.injEq] at g2
                obtain ⟨rfl, g2⟩ := g2
                rcases hq with rfl | rfl
                · exact absurd (by rw [g1]; simp) hqr
                · exact absurd (by rw [g2]; simp) hS.2.1
          rw [f1] at h1
          simp at h1
          omega

/-! ## Names the reader gives -/

/-- A name the reader may give to a measurement after these callbacks. -/
def FromEvents (es : List Event) (n : Str) : Prop := n = [] ∨ n = b!"unknown" ∨ ∃ el l, .start el l ∈ es ∧ (b!"name", n) ∈ l

theorem createLoop_name (l : List (Str × Str)) : ∀ (o : Option DataM), (∀ d, o = some d → d.name = []) → ∀ d, createLoop l o = some d → d.name = [] := by
  induction l with
  | nil => intro o h d e; exact h d e
  | cons p l ih =>
    obtain ⟨a, v⟩ := p
    intro o h d e
    rw [createLoop] at e
    split at e
    · refine ih _ ?_ d e
      intro d hd
      cases hd
      rw [createDataMeasurement.eq_def]
      repeat' split
      all_goals rfl
    · exact ih o h d e

theorem dataAttributes_name (l : List (Str × Str)) : ∀ (o r : Option DataM), dataAttributes l o = .ok r → ∀ d, r = some d →
    (∃ d0, o = some d0 ∧ d.name = d0.name) ∨ (b!"name", d.name) ∈ l := by
  induction l with
  | nil => intro o r h d e; cases h; exact .inl ⟨d, e, rfl⟩
  | cons p l ih =>
    obtain ⟨a, v⟩ := p
    intro o r h d e
    rw [dataAttributes.eq_def] at h
    simp only at h
    split at h
    · next ha =>
      subst ha
      cases o with
      | none => cases h
      | some d0 =>
        rcases ih _ _ h d e with ⟨d1, h1, h2⟩ | h
        · cases h1
          exact .inr (by rw [h2]; simp)
        · exact .inr (by simp [h])
    · split at h
      · rcases ih _ _ h d e with h | h
        · exact .inl h
        · exact .inr (by simp [h])
      · split at h
        · cases o with
          | none => cases h
          | some d0 =>
            rcases ih _ _ h d e with ⟨d1, h1, h2⟩ | h
            · cases h1
              exact .inl ⟨d0, rfl, h2⟩
            · exact .inr (by simp [h])
        · split at h
          · cases o with
            | none => cases h
            | some d0 =>
              rcases ih _ _ h d e with ⟨d1, h1, h2⟩ | h
              · cases h1
                exact .inl ⟨d0, rfl, h2⟩
              · exact .inr (by simp [h])
          · rcases ih _ _ h d e with h | h
            · exact .inl h
            · exact .inr (by simp [h])

theorem fileAttributes_name (l : List (Str × Str)) : ∀ f : FileM, (fileAttributes l f).name = f.name ∨ (b!"name", (fileAttributes l f).name) ∈ l := by
  induction l with
  | nil => intro f; exact .inl rfl
  | cons p l ih =>
    obtain ⟨a, v⟩ := p
    intro f
    rw [fileAttributes]
    split
    · next ha =>
      subst ha
      rcases ih { f with name := v } with h | h
      · exact .inr (by rw [h]; simp)
      · exact .inr (by simp [h])
    · split
      · rcases ih { f with type := v } with h | h
        · exact .inl h
        · exact .inr (by simp [h])
      · rcases ih f with h | h
        · exact .inl h
        · exact .inr (by simp [h])

theorem setContent_name (c : Str) (m : Meas) : (setContent c m).name = m.name := by
  cases m <;> rfl

theorem onStart_names (pd pd' : ParseData) (el : Str) (l : List (Str × Str)) (h : onStart pd el l = .ok pd') :
    pd'.measurements = pd.measurements ∧ ∀ m, pd'.m = some m → m.name = [] ∨ m.name = b!"unknown" ∨ (b!"name", m.name) ∈ l := by
  rw [onStart] at h
  split at h
  · cases h
  · next hm =>
    have hm : pd.m = none := by simpa using hm
    split at h
    · cases h
    · split at h
      · split at h
        · split at h
          · cases h
          · next dm hd =>
            cases h
            refine ⟨rfl, ?_⟩
            intro m e
            simp only [Option.map_eq_some_iff] at e
            obtain ⟨d, rfl, rfl⟩ := e
            rcases dataAttributes_name l _ _ hd d rfl with ⟨d0, h1, h2⟩ | h
            · exact .inl (by rw [Meas.name, h2]; exact createLoop_name l none (by simp) d0 h1)
            · exact .inr (.inr h)
        · split at h
          · cases h
            refine ⟨rfl, ?_⟩
            intro m e
            cases e
            rcases fileAttributes_name l { type := b!"text/plain", name := b!"unknown" } with h | h
            · exact .inr (.inl h)
            · exact .inr (.inr h)
          · cases h
            exact ⟨rfl, by simp [hm]⟩
      · cases h
        exact ⟨rfl, by simp [hm]⟩

/-- Every measurement the reader makes is named after an attribute of a start tag. -/
theorem onEvents_names (es : List Event) : ∀ (done : List Event) (pd pd' : ParseData), onEvents pd es = .ok pd' →
    ((∀ m ∈ pd.measurements, FromEvents done m.name) ∧ ∀ m, pd.m = some m → FromEvents done m.name) →
    ∀ m ∈ pd'.measurements, FromEvents (done ++ es) m.name := by
  induction es with
  | nil => intro done pd pd' h hi; cases h; simpa using hi.1
  | cons e es ih =>
    intro done pd pd' h hi
    rw [onEvents] at h
    have grow : ∀ n, FromEvents done n → FromEvents (done ++ [e]) n := by
      rintro n (h | h | ⟨el, l, h, h'⟩)
      · exact .inl h
      · exact .inr (.inl h)
      · exact .inr (.inr ⟨el, l, by simp [h], h'⟩)
    rcases hp : onEvent pd e with f | pd1
    · rw [hp] at h; cases h
    · rw [hp] at h
      have := ih (done ++ [e]) pd1 pd' h ?_
      · simpa [List.append_assoc] using this
      · cases e with
        | start el l =>
          obtain ⟨h1, h2⟩ := onStart_names pd pd1 el l hp
          refine ⟨by rw [h1]; exact fun m hm => grow _ (hi.1 m hm), ?_⟩
          intro m hm
          rcases h2 m hm with h | h | h
          · exact .inl h
          · exact .inr (.inl h)
          · exact .inr (.inr ⟨el, l, by simp, h⟩)
        | stop el =>
          cases hp
          refine ⟨?_, by simp [onEnd]⟩
          intro m hm
          simp only [onEnd] at hm
          split at hm
          · next m' hm' =>
            split at hm
            · simp only [List.mem_append, List.mem_singleton] at hm
              rcases hm with hm | rfl
              · exact grow _ (hi.1 m hm)
              · rw [setContent_name]; exact grow _ (hi.2 m' hm')
            · exact grow _ (hi.1 m hm)
          · exact grow _ (hi.1 m hm)
        | text s =>
          cases hp
          simp only [onText]
          split
          · exact ⟨fun m hm => grow _ (hi.1 m hm), fun m hm => grow _ (hi.2 m hm)⟩
          · exact ⟨fun m hm => grow _ (hi.1 m hm), fun m hm => grow _ (hi.2 m hm)⟩

/-! ## The theorem -/

theorem plain_chars {s : Str} (h : PlainAttr s) : 38 ∉ s ∧ 39 ∉ s ∧ 60 ∉ s := by
  refine ⟨?_, ?_, ?_⟩ <;> intro hc <;> have := h _ hc
  · exact absurd this.1 (by decide)
  · exact this.2 rfl
  · exact absurd this.1 (by decide)

theorem typeName_plain (k : Measurement.Kind) : PlainAttr k.typeName := by
  rcases k with _ | _ | (_ | _ | _ | _) <;> unfold PlainAttr <;> decide

/-- The printed form: start tag up to the name, the name, the rest of the start tag, escaped content, end tag. -/
theorem printed_shape (m : Meas) (t : Str) (h : PlainExceptName m) (hp : m.print = .ok t) :
    ∃ S C, t = 60 :: (m.element ++ b!" name=" ++ 34 :: (m.name ++ 34 :: (S ++ 62 :: C))) ++ b!"</" ++ m.element ++ b!">" ∧
      (38 ∉ S ∧ 39 ∉ S ∧ 60 ∉ S) ∧ 62 ∉ C ∧ 60 ∉ C := by
  have hesc : m.escape = true := by
    cases m with
    | file f => exact h.2
    | data d => exact h.2.2
  have hC := C25_escape_invertible m.content _ (C25_escape_exact _)
  simp only [Meas.print, Meas.printContent, hesc, if_true, C25_escape_exact, bind, Except.bind, pure, Except.pure, Except.ok.injEq] at hp
  subst hp
  cases m with
  | file f =>
    have ht := plain_chars h.1
    refine ⟨b!" type=\"" ++ f.type ++ b!"\"", f.fileName.flatMap xmlChar, ?_, ?_, hC.2.1, hC.1⟩
    · simp [Meas.startTag, Meas.endTag, Meas.name, Meas.content, List.append_assoc]
    · simp [ht]
  | data d =>
    have ht := plain_chars (typeName_plain d.kind)
    have he := plain_chars h.1
    have hc := plain_chars h.2.1
    refine ⟨b!" type=\"" ++ d.kind.typeName ++ b!"\"" ++ (if d.encoding ≠ b!"none" then b!" encoding=\"" ++ d.encoding ++ b!"\"" else [])
      ++ (if d.compression ≠ b!"none" then b!" compression=\"" ++ d.compression ++ b!"\"" else []), d.content.flatMap xmlChar, ?_, ?_, hC.2.1, hC.1⟩
    · simp [Meas.startTag, Meas.endTag, Meas.name, Meas.content, List.append_assoc]
    · split <;> split <;> simp [ht, he, hc]

/-- **C26, negative.** A name with a quote, an ampersand or a `<` never reads back: whatever the rest of the name and the content are, no
measurement read from the document has that name. -/
theorem C26_special_names_lost (X : Expat) (hX : TagsFromText X) (w : World) (hw : Comment (commentText w)) (m : Meas) (t : Str)
    (h : PlainExceptName m) (hp : m.print = .ok t) (hN : 34 ∈ m.name ∨ 38 ∈ m.name ∨ 60 ∈ m.name) (ms : List Meas)
    (hr : readXML X (header w ++ (t ++ b!"\n") ++ footer) = .ok ms) : ∀ m' ∈ ms, m'.name ≠ m.name := by
  obtain ⟨S, C, et, hS, hC62, hC60⟩ := printed_shape m t h hp
  obtain ⟨chunks, hb, hf, _, hread⟩ := C42_chunks_are_the_file (header w ++ (t ++ b!"\n") ++ footer)
  rw [hread X] at hr
  have hdoc : bytesOf chunks = declaration ++ b!"\n<!--" ++ commentText w ++ b!"-->\n<" ++ b!"output" ++ b!">" ++ (b!"\n" ++ (t ++ b!"\n") ++ b!"</output>\n") := by
    rw [hb, header_eq]; simp [List.append_assoc]
  rcases he : onEvents {} (feeds X X.init chunks).1 with f | pd
  · rw [he] at hr; cases hr
  · rw [he] at hr
    simp only [leave] at hr
    split at hr
    · cases hr
    · split at hr
      · cases hr
        intro m' hm' hname
        have hfrom := onEvents_names _ [] {} pd he (by simp) m' hm'
        rw [hname] at hfrom
        simp only [List.nil_append] at hfrom
        rcases hfrom with h0 | h0 | ⟨el, l, hst, hmem⟩
        · rw [h0] at hN; simp at hN
        · rw [h0] at hN; exact absurd hN (by decide)
        · obtain ⟨pre, tag, post, e, hn60, htag⟩ := hX _ _ _ chunks hw name_output hf hdoc el l hst
          obtain ⟨ht60, hval⟩ := htag.value
          obtain ⟨a, q, raw, b, etag, hq, hqr, hr60, hv⟩ := hval _ _ hmem
          -- where the tag is
          have hel : 34 ∉ m.element ∧ 39 ∉ m.element ∧ 60 ∉ m.element ∧ 62 ∉ m.element := by
            cases m
            · exact (by decide : 34 ∉ b!"DartMeasurement" ∧ 39 ∉ b!"DartMeasurement" ∧ 60 ∉ b!"DartMeasurement" ∧ 62 ∉ b!"DartMeasurement")
            · exact (by decide : 34 ∉ b!"DartMeasurementFile" ∧ 39 ∉ b!"DartMeasurementFile" ∧ 60 ∉ b!"DartMeasurementFile" ∧ 62 ∉ b!"DartMeasurementFile")
          have hu : 60 ∉ el ++ tag ++ b!">" := by simp [hn60, ht60]
          have hqu : q ∈ el ++ tag ++ b!">" := by rw [etag]; simp
          have e1 : pre ++ 60 :: ((el ++ tag ++ b!">") ++ post) = b!"\n<output>\n" ++
              60 :: (m.element ++ b!" name=" ++ 34 :: (m.name ++ 34 :: (S ++ 62 :: C)) ++ b!"</" ++ m.element ++ b!">\n</output>\n") := by
            have : pre ++ 60 :: ((el ++ tag ++ b!">") ++ post) = pre ++ b!"<" ++ el ++ tag ++ b!">" ++ post := by simp [List.append_assoc]
            rw [this, ← e, et]
            simp [List.append_assoc]
          rcases piece_side _ _ _ _ _ hu e1 with ⟨post', e2⟩ | ⟨pre', e2⟩
          · have : q ∈ b!"\n<output>\n" := by rw [e2]; exact List.mem_append_right _ (List.mem_cons_of_mem _ (List.mem_append_left _ hqu))
            rcases hq with rfl | rfl
            · exact absurd this (by decide)
            · exact absurd this (by decide)
          · have e3 : pre' ++ 60 :: ((el ++ tag ++ b!">") ++ post) =
                (60 :: (m.element ++ b!" name=" ++ 34 :: (m.name ++ 34 :: (S ++ 62 :: C)))) ++ 60 :: (b!"/" ++ m.element ++ b!">\n</output>\n") := by
              rw [← e2]; simp [List.append_assoc]
            rcases piece_side _ _ _ _ _ hu e3 with ⟨post', e4⟩ | ⟨pre'', e4⟩
            · have e5 : pre' ++ ((60 :: (el ++ tag)) ++ 62 :: post') =
                  (60 :: (m.element ++ b!" name=" ++ 34 :: (m.name ++ 34 :: (S ++ b!">")))) ++ C := by
                have : pre' ++ ((60 :: (el ++ tag)) ++ 62 :: post') = pre' ++ 60 :: ((el ++ tag ++ b!">") ++ post') := by simp [List.append_assoc]
                rw [this, ← e4]
                simp [List.append_assoc]
              obtain ⟨post'', e6⟩ := piece_before _ _ _ _ _ hC62 e5
              refine quoted_not_name (60 :: (m.element ++ b!" name=")) m.name (S ++ b!">") (pre' ++ 60 :: (el ++ a)) (b ++ 62 :: post'') raw m.name q
                ?_ ?_ ?_ hq hqr hr60 hv hN rfl
              · simp [hel]
              · simp [hS]
              · rw [etag] at e6
                have : (60 :: (m.element ++ b!" name=")) ++ 34 :: (m.name ++ 34 :: (S ++ b!">")) = 60 :: (m.element ++ b!" name=" ++ 34 :: (m.name ++ 34 :: (S ++ b!">"))) := by
                  simp [List.append_assoc]
                rw [this, e6]
                simp [List.append_assoc]
            · have : q ∈ 60 :: (b!"/" ++ m.element ++ b!">\n</output>\n") := by
                rw [e4]; exact List.mem_append_right _ (List.mem_cons_of_mem _ (List.mem_append_left _ hqu))
              rcases hq with rfl | rfl
              · simp [hel] at this
              · simp [hel] at this
      · cases hr

/-! ## The assumption can be met -/

/-- What the reference parser has read of a tag, by where it is. -/
def TagRead (w : Str) : Mode → Prop
  | .afterComment left => left = b!"\n<" ∨ left = b!"<"
  | .tag => ∃ pre, w = pre ++ b!"<"
  | .name n => ∃ pre, w = pre ++ b!"<" ++ n ∧ 60 ∉ n
  | .attrName n l a => ∃ pre t, w = pre ++ b!"<" ++ n ++ t ++ b!" " ++ a ∧ 60 ∉ n ∧ 60 ∉ a ∧ ∀ r k, TagAttrs r k → TagAttrs (t ++ r) (l ++ k)
  | .quote n l a => ∃ pre t, w = pre ++ b!"<" ++ n ++ t ++ b!" " ++ a ++ b!"=" ∧ 60 ∉ n ∧ 60 ∉ a ∧ ∀ r k, TagAttrs r k → TagAttrs (t ++ r) (l ++ k)
  | .value n l a v => ∃ pre t raw, w = pre ++ b!"<" ++ n ++ t ++ b!" " ++ a ++ b!"=\"" ++ raw ∧ 60 ∉ n ∧ 60 ∉ a ∧
      (∀ r k, TagAttrs r k → TagAttrs (t ++ r) (l ++ k)) ∧ 34 ∉ raw ∧ 60 ∉ raw ∧ RawValue raw v
  | .valueEntity n l a v e => ∃ pre t raw, w = pre ++ b!"<" ++ n ++ t ++ b!" " ++ a ++ b!"=\"" ++ raw ++ b!"&" ++ e ∧ 60 ∉ n ∧ 60 ∉ a ∧
      (∀ r k, TagAttrs r k → TagAttrs (t ++ r) (l ++ k)) ∧ 34 ∉ raw ∧ 60 ∉ raw ∧ RawValue raw v
  | .afterValue n l => ∃ pre t, w = pre ++ b!"<" ++ n ++ t ∧ 60 ∉ n ∧ ∀ r k, TagAttrs r k → TagAttrs (t ++ r) (l ++ k)
  | _ => True

/-- A start tag is in the text. -/
def TagIn (w n : Str) (l : List (Str × Str)) : Prop :=
  ∃ pre tag post, w = pre ++ b!"<" ++ n ++ tag ++ b!">" ++ post ∧ 60 ∉ n ∧ TagAttrs tag l

theorem tagIn_append {w n : Str} {l : List (Str × Str)} (h : TagIn w n l) (r : Str) : TagIn (w ++ r) n l := by
  obtain ⟨pre, tag, post, rfl, h⟩ := h
  exact ⟨pre, tag, post ++ r, by simp [List.append_assoc], h⟩

theorem letter_ne60 {c : UInt8} (h : Letter c) : 60 ≠ c := by rintro rfl; exact absurd h (by decide)

/-- One byte. -/
theorem byte_tags (s : Mode × List Str) (w : Str) (c : UInt8) (h : TagRead w s.1) :
    TagRead (w ++ [c]) (byte s c).1.1 ∧ ∀ n l, .start n l ∈ (byte s c).2 → TagIn (w ++ [c]) n l := by
  obtain ⟨md, st⟩ := s
  cases md with
  | prolog left =>
    rcases left with _ | ⟨x, _ | ⟨y, r⟩⟩ <;> simp only [byte] <;> (try split) <;> exact ⟨trivial, by simp⟩
  | comment k =>
    simp only [byte]
    repeat' split
    · exact ⟨.inl rfl, by simp⟩
    all_goals exact ⟨trivial, by simp⟩
  | afterComment left =>
    rcases left with _ | ⟨x, _ | ⟨y, r⟩⟩ <;> simp only [byte]
    · exact ⟨trivial, by simp⟩
    · split
      · next hx =>
        subst hx
        rcases h with h | h
        · cases h
        · cases h
          exact ⟨⟨w, rfl⟩, by simp⟩
      · exact ⟨trivial, by simp⟩
    · split
      · rcases h with h | h
        · cases h
          exact ⟨.inr rfl, by simp⟩
        · cases h
      · exact ⟨trivial, by simp⟩
  | tag =>
    obtain ⟨pre, rfl⟩ := h
    simp only [byte]
    split
    · exact ⟨trivial, by simp⟩
    · split
      · next hl => exact ⟨⟨pre, by simp, by simp [letter_ne60 hl]⟩, by simp⟩
      · exact ⟨trivial, by simp⟩
  | name n =>
    obtain ⟨pre, rfl, hn⟩ := h
    simp only [byte]
    split
    · next hl => exact ⟨⟨pre, by simp, by simp [hn, letter_ne60 hl]⟩, by simp⟩
    · split
      · next hc =>
        subst hc
        exact ⟨⟨pre, [], by simp, hn, by simp, fun r k h => h⟩, by simp⟩
      · split
        · next hc =>
          subst hc
          refine ⟨trivial, ?_⟩
          intro n' l' hm
          simp only [List.mem_singleton, Event.start.injEq] at hm
          obtain ⟨rfl, rfl⟩ := hm
          exact ⟨pre, [], [], by simp, hn, .done _ (by simp [Blank])⟩
        · exact ⟨trivial, by simp⟩
  | attrName n l a =>
    obtain ⟨pre, t, rfl, hn, ha, ht⟩ := h
    simp only [byte]
    split
    · next hl => exact ⟨⟨pre, t, by simp, hn, by simp [ha, letter_ne60 hl], ht⟩, by simp⟩
    · split
      · next hc => subst hc; exact ⟨⟨pre, t, by simp, hn, ha, ht⟩, by simp⟩
      · exact ⟨trivial, by simp⟩
  | quote n l a =>
    obtain ⟨pre, t, rfl, hn, ha, ht⟩ := h
    simp only [byte]
    split
    · next hc => subst hc; exact ⟨⟨pre, t, [], by simp, hn, ha, ht, by simp, by simp, .nil⟩, by simp⟩
    · exact ⟨trivial, by simp⟩
  | value n l a v =>
    obtain ⟨pre, t, raw, rfl, hn, ha, ht, h34, h60, hv⟩ := h
    simp only [byte]
    split
    · next hc =>
      subst hc
      refine ⟨⟨pre, t ++ (b!" " ++ a ++ b!"=\"" ++ raw ++ b!"\""), by simp, hn, ?_⟩, by simp⟩
      intro r k hr
      have := ht _ _ (.attr b!" " a [] [] 34 raw v r k (by simp [Blank]) ha (by simp [Blank]) (by simp [Blank]) (.inl rfl) h34 h60 hv hr)
      simpa [List.append_assoc] using this
    · split
      · next hc => subst hc; exact ⟨⟨pre, t, raw, by simp, hn, ha, ht, h34, h60, hv⟩, by simp⟩
      · next h3 =>
        split
        · next hc =>
          refine ⟨⟨pre, t, raw ++ [c], by simp, hn, ha, ht, ?_, ?_, hv.append (.char c [] [] h3 .nil)⟩, by simp⟩
          · simp only [List.mem_append, List.mem_singleton, not_or]; exact ⟨h34, fun e => hc.2.2.1 e.symm⟩
          · simp only [List.mem_append, List.mem_singleton, not_or]; exact ⟨h60, fun e => hc.2.2.2.2 e.symm⟩
        · exact ⟨trivial, by simp⟩
  | valueEntity n l a v e =>
    obtain ⟨pre, t, raw, rfl, hn, ha, ht, h34, h60, hv⟩ := h
    simp only [byte]
    split
    · next hc =>
      subst hc
      cases hx : entityChar e with
      | none => exact ⟨trivial, by simp⟩
      | some x =>
        have he : 2 ≤ e.length ∧ 34 ∉ e ∧ 60 ∉ e := by
          rw [entityChar] at hx
          split at hx
          · next h => subst h; decide
          · split at hx
            · next h => subst h; decide
            · split at hx
              · next h => subst h; decide
              · cases hx
        refine ⟨⟨pre, t, raw ++ (b!"&" ++ e ++ b!";"), by simp, hn, ha, ht, by simp [h34, he], by simp [h60, he], ?_⟩, by simp⟩
        refine hv.append ?_
        have := RawValue.ref e [x] [] [] (by simp only [List.length_singleton]; omega) .nil
        simpa using this
    · exact ⟨⟨pre, t, raw, by simp, hn, ha, ht, h34, h60, hv⟩, by simp⟩
  | afterValue n l =>
    obtain ⟨pre, t, rfl, hn, ht⟩ := h
    simp only [byte]
    split
    · next hc => subst hc; exact ⟨⟨pre, t, by simp, hn, by simp, ht⟩, by simp⟩
    · split
      · next hc =>
        subst hc
        refine ⟨trivial, ?_⟩
        intro n' l' hm
        simp only [List.mem_singleton, Event.start.injEq] at hm
        obtain ⟨rfl, rfl⟩ := hm
        refine ⟨pre, t, [], by simp, hn, ?_⟩
        have := ht [] [] (.done _ (by simp [Blank]))
        simpa using this
      · exact ⟨trivial, by simp⟩
  | content =>
    simp only [byte]
    split
    · next hc => subst hc; exact ⟨⟨w, rfl⟩, by simp⟩
    · repeat' split
      all_goals exact ⟨trivial, by simp⟩
  | cr => simp only [byte]; split <;> exact ⟨trivial, by simp⟩
  | entity e =>
    simp only [byte]
    split
    · cases entityChar e <;> exact ⟨trivial, by simp⟩
    · exact ⟨trivial, by simp⟩
  | close n =>
    cases st with
    | nil => exact ⟨trivial, by simp [byte]⟩
    | cons top st =>
      simp only [byte]
      repeat' split
      all_goals exact ⟨trivial, by simp⟩
  | epilog => simp only [byte]; split <;> exact ⟨trivial, by simp⟩
  | done => exact ⟨trivial, by simp [byte]⟩
  | bad => exact ⟨trivial, by simp [byte]⟩

/-- Many bytes. -/
theorem bytes_tags (u : Str) : ∀ (s : Mode × List Str) (w : Str), TagRead w s.1 → ∀ n l, .start n l ∈ (bytes s u).2 → TagIn (w ++ u) n l := by
  induction u with
  | nil => intro s w _ n l h; simp [bytes] at h
  | cons c u ih =>
    intro s w hw n l h
    obtain ⟨h1, h2⟩ := byte_tags s w c hw
    simp only [bytes, List.mem_append] at h
    have e : w ++ c :: u = w ++ [c] ++ u := by simp
    rw [e]
    rcases h with h | h
    · exact tagIn_append (h2 n l h) u
    · exact ih _ _ h1 n l h

/-- The callbacks of the reference parser are those for the whole text, however it is cut. -/
theorem feeds_reference_events (init : List Str) (last : Str) : ∀ (s : Mode × List Str),
    (feeds reference s (init.map (fun c => (c, false)) ++ [(last, true)])).1 = (bytes s (init.flatten ++ last)).2 := by
  induction init with
  | nil =>
    intro s
    simp only [List.map_nil, List.nil_append, List.flatten_nil, feeds, reference]
    split
    · next h => simp only [Prod.mk.injEq] at h; obtain ⟨_, rfl, _⟩ := h; simp
    · next h => simp only [Prod.mk.injEq] at h; obtain ⟨_, rfl, _⟩ := h; rfl
  | cons c init ih =>
    intro s
    rw [List.flatten_cons, List.append_assoc, bytes_append, List.map_cons, List.cons_append, feeds.eq_2]
    have := ih (bytes s c).1
    by_cases hb : (bytes s c).1.1 = .bad
    · rcases hs : (bytes s c).1 with ⟨md, st⟩
      rw [hs] at hb
      simp only at hb
      subst hb
      simp [hs, bytes_bad]
    · simp [hb, this]

/-- The assumption about start tags can be met, by the parser that meets the other assumptions. -/
theorem reference_tags : TagsFromText reference := by
  rintro c root rest chunks hc hroot ⟨init, last, rfl⟩ hbytes n l hm
  have hb : init.flatten ++ last = declaration ++ b!"\n<!--" ++ c ++ b!"-->" ++ (b!"\n<" ++ root ++ b!">" ++ rest) := by
    have e : declaration ++ b!"\n<!--" ++ c ++ b!"-->" ++ (b!"\n<" ++ root ++ b!">" ++ rest) =
        declaration ++ b!"\n<!--" ++ c ++ b!"-->\n<" ++ root ++ b!">" ++ rest := by simp [List.append_assoc]
    rw [e, ← hbytes, bytesOf, List.map_append, List.map_map]
    simp [Function.comp_def]
  have h1 : bytes reference.init (declaration ++ b!"\n<!--") = ((.comment 0, []), []) := bytes_prolog [] _ (by decide)
  obtain ⟨h', hle, h2, hz⟩ := bytes_comment [] c 0 (by omega) hc.1 hc.2.1 (by simp)
  have hz : h' = 0 := by
    rw [hz]
    cases c with
    | nil => simp
    | cons x c => exact Or.inr ⟨by simp, hc.2.2⟩
  subst hz
  have h3 : bytes (.comment 0, []) b!"-->" = ((.afterComment b!"\n<", []), []) := by simp [bytes, byte]
  have h := bytes_trans (bytes_trans h1 h2) h3
  rw [feeds_reference_events, hb, bytes_append, h] at hm
  simp only [List.append_nil, List.nil_append] at hm
  exact bytes_tags _ (.afterComment b!"\n<", []) [] (Or.inl rfl) n l hm

/-! ## What such names are read as -/

/-- The printed form of a measurement without encoding and compression. -/
theorem print_plain (k : Measurement.Kind) (name content : Str) : (Meas.data { kind := k, name := name, content := content }).print =
    .ok (b!"<DartMeasurement name=\"" ++ name ++ b!"\" type=\"" ++ k.typeName ++ b!"\">" ++ content.flatMap xmlChar ++ b!"</DartMeasurement>") := by
  simp only [Meas.print, Meas.printContent, Meas.escape, Meas.content, if_true, C25_escape_exact, bind, Except.bind, pure, Except.pure,
    Meas.startTag, Meas.endTag, Meas.element]
  simp [List.append_assoc]

/-- The callbacks of an element with attributes that are not read, a name and a type. -/
theorem read_named (X : Expat) (hX : Conforms X) (w : World) (hw : Comment (commentText w)) (k : Measurement.Kind) (as : Str)
    (l : List (Str × Str)) (v content : Str) (has : Attrs as l) (hc : ∀ c ∈ content, Printable c)
    (hs : onStart { depth := 1 } b!"DartMeasurement" l = .ok { depth := 2, m := some (.data { kind := k, name := v }) }) :
    readXML X (header w ++ (b!"<DartMeasurement" ++ as ++ b!">" ++ content.flatMap xmlChar ++ b!"</DartMeasurement>" ++ b!"\n") ++ footer) =
      .ok [.data { kind := k, name := v, content := content }] := by
  have hel := Content.element b!"DartMeasurement" as l _ _ b!"\n" _ (by decide) has (content_escaped content hc) (.char 10 [] [] (by decide) .nil)
  have e : b!"<DartMeasurement" ++ as ++ b!">" ++ content.flatMap xmlChar ++ b!"</DartMeasurement>" ++ b!"\n" =
      b!"<" ++ b!"DartMeasurement" ++ as ++ b!">" ++ content.flatMap xmlChar ++ b!"</" ++ b!"DartMeasurement" ++ b!">" ++ b!"\n" := by
    simp [List.append_assoc]
  rw [e, header_eq, readXML_body X hX w hw _ name_output _ _ hel, List.cons_append, onEvents]
  simp only [onEvent, hs]
  rw [onEvents_append, onEvents_letters _ _ rfl]
  simp [onEvents, onEvent, onEnd, setContent, DataM.setContent, onText]

/-- **C26, negative.** A name made of characters and entities reads back as what the entities stand for: the name "a&amp;amp;b", recorded, is
read as "a&amp;b". -/
theorem C26_entities_decoded (X : Expat) (hX : Conforms X) (w : World) (hw : Comment (commentText w)) (k : Measurement.Kind) (name v content : Str)
    (hn : AttrValue name v) (hc : ∀ c ∈ content, Printable c) :
    ∃ t, (Meas.data { kind := k, name := name, content := content }).print = .ok t ∧
      readXML X (header w ++ (t ++ b!"\n") ++ footer) = .ok [.data { kind := k, name := v, content := content }] := by
  refine ⟨_, print_plain k name content, ?_⟩
  have has : Attrs (b!" " ++ b!"name" ++ b!"=\"" ++ name ++ b!"\"" ++ (b!" " ++ b!"type" ++ b!"=\"" ++ k.typeName ++ b!"\"" ++ [])) _ :=
    .cons b!"name" _ _ _ _ (by decide) hn (.cons b!"type" _ _ _ _ (by decide) (attrValue_chars k.typeName (typeName_chars k)) .nil (by simp))
      (by simp)
  have := read_named X hX w hw k _ _ v content has hc (by rcases k with _ | _ | (_ | _ | _ | _) <;> rfl)
  rw [← this]
  simp [List.append_assoc]

/-- **C26, negative.** A name that ends its own quotes and goes on with another attribute reads back as its beginning; the rest is lost. -/
theorem C26_rest_lost (X : Expat) (hX : Conforms X) (w : World) (hw : Comment (commentText w)) (k : Measurement.Kind) (a n c content : Str)
    (ha : ∀ x ∈ a, AttrChar x) (hn : Name n) (hn' : n ≠ b!"name" ∧ n ≠ b!"type" ∧ n ≠ b!"encoding" ∧ n ≠ b!"compression")
    (hc' : ∀ x ∈ c, AttrChar x) (hc : ∀ c ∈ content, Printable c) :
    ∃ t, (Meas.data { kind := k, name := a ++ b!"\" " ++ n ++ b!"=\"" ++ c, content := content }).print = .ok t ∧
      readXML X (header w ++ (t ++ b!"\n") ++ footer) = .ok [.data { kind := k, name := a, content := content }] := by
  refine ⟨_, print_plain k _ content, ?_⟩
  have has : Attrs (b!" " ++ b!"name" ++ b!"=\"" ++ a ++ b!"\"" ++ (b!" " ++ n ++ b!"=\"" ++ c ++ b!"\"" ++
      (b!" " ++ b!"type" ++ b!"=\"" ++ k.typeName ++ b!"\"" ++ []))) _ :=
    .cons b!"name" _ _ _ _ (by decide) (attrValue_chars a ha) (.cons n _ _ _ _ hn (attrValue_chars c hc')
      (.cons b!"type" _ _ _ _ (by decide) (attrValue_chars k.typeName (typeName_chars k)) .nil (by simp)) (by simp [hn'.2.1]))
      (by simp [Ne.symm hn'.1])
  have := read_named X hX w hw k _ _ a content has hc (by
    have h1 : createLoop [(b!"name", a), (n, c), (b!"type", k.typeName)] none = some { kind := k } := by
      simp [createLoop, hn'.2.1, create_typeName]
    have h2 : dataAttributes [(b!"name", a), (n, c), (b!"type", k.typeName)] (some { kind := k }) = .ok (some { kind := k, name := a }) := by
      simp [dataAttributes, hn'.1, hn'.2.1, hn'.2.2.1, hn'.2.2.2]
    simp [onStart, h1, h2])
  rw [← this]
  simp [List.append_assoc]

/-- The hypotheses are met: a parser that exists reads the recorded "a&amp;amp;b" as "a&amp;b", ... -/
example : ∃ t, (Meas.data { kind := .string, name := b!"a&amp;b", content := b!"1 < 2" }).print = .ok t ∧
    readXML reference (header plainWorld ++ (t ++ b!"\n") ++ footer) = .ok [.data { kind := .string, name := b!"a&b", content := b!"1 < 2" }] :=
  C26_entities_decoded reference reference_conforms plainWorld plain_comment .string _ _ _
    (.char 97 _ _ (by decide) (.amp _ _ (.char 98 _ _ (by decide) .nil))) (by decide)

/-- ... and of the recorded name `a" b="c` only "a" is left, with no measurement of the recorded name. -/
example : ∃ t, (Meas.data { kind := .string, name := b!"a\" b=\"c", content := b!"x" }).print = .ok t ∧
    readXML reference (header plainWorld ++ (t ++ b!"\n") ++ footer) = .ok [.data { kind := .string, name := b!"a", content := b!"x" }] ∧
    ∀ ms, readXML reference (header plainWorld ++ (t ++ b!"\n") ++ footer) = .ok ms → ∀ m' ∈ ms, m'.name ≠ b!"a\" b=\"c" := by
  obtain ⟨t, h1, h2⟩ := C26_rest_lost reference reference_conforms plainWorld plain_comment .string b!"a" b!"b" b!"c" b!"x"
    (by decide) (by decide) (by decide) (by decide) (by decide)
  exact ⟨t, h1, h2, fun ms hms => C26_special_names_lost reference reference_tags plainWorld plain_comment
    (.data { kind := .string, name := b!"a\" b=\"c", content := b!"x" }) t
    ⟨by unfold PlainAttr; decide, by unfold PlainAttr; decide, rfl⟩ h1 (by decide) ms hms⟩

end Verif.Xml
