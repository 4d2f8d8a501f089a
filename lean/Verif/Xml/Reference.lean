import Verif.Xml.Spec

/-!
# A parser that meets the assumptions about expat

It exists to show that the assumptions are consistent; it is not part of the model.
-/

namespace Verif.Xml
open Spec

/-- Where the parser is. -/
inductive Mode where
  | prolog (left : Str)
  | comment (hyphens : Nat)
  | afterComment (left : Str)
  | tag
  | name (n : Str)
  | attrName (n : Str) (l : List (Str × Str)) (a : Str)
  | quote (n : Str) (l : List (Str × Str)) (a : Str)
  | value (n : Str) (l : List (Str × Str)) (a v : Str)
  | valueEntity (n : Str) (l : List (Str × Str)) (a v e : Str)
  | afterValue (n : Str) (l : List (Str × Str))
  | content
  | cr
  | entity (e : Str)
  | close (n : Str)
  | epilog
  | done
  | bad
  deriving Repr, DecidableEq

/-- The character an entity stands for. -/
def entityChar (e : Str) : Option UInt8 :=
  if e = b!"amp" then some 38 else if e = b!"lt" then some 60 else if e = b!"gt" then some 62 else none

/-- One byte. -/
def byte (s : Mode × List Str) (c : UInt8) : (Mode × List Str) × List Event :=
  match s with
  | (.prolog [], st) => ((.bad, st), [])
  | (.prolog [x], st) => if c = x then ((.comment 0, st), []) else ((.bad, st), [])
  | (.prolog (x :: y :: r), st) => if c = x then ((.prolog (y :: r), st), []) else ((.bad, st), [])
  | (.comment h, st) =>
    if 2 ≤ h then if c = 62 then ((.afterComment b!"\n<", st), []) else ((.bad, st), [])
    else if c = 45 then ((.comment (h + 1), st), [])
    else if Printable c then ((.comment 0, st), []) else ((.bad, st), [])
  | (.afterComment [], st) => ((.bad, st), [])
  | (.afterComment [x], st) => if c = x then ((.tag, st), []) else ((.bad, st), [])
  | (.afterComment (x :: y :: r), st) => if c = x then ((.afterComment (y :: r), st), []) else ((.bad, st), [])
  | (.tag, st) =>
    if c = 47 then ((.close [], st), []) else if Letter c then ((.name [c], st), []) else ((.bad, st), [])
  | (.name n, st) =>
    if Letter c then ((.name (n ++ [c]), st), [])
    else if c = 32 then ((.attrName n [] [], st), [])
    else if c = 62 then ((.content, n :: st), [.start n []]) else ((.bad, st), [])
  | (.attrName n l a, st) =>
    if Letter c then ((.attrName n l (a ++ [c]), st), [])
    else if c = 61 then ((.quote n l a, st), []) else ((.bad, st), [])
  | (.quote n l a, st) => if c = 34 then ((.value n l a [], st), []) else ((.bad, st), [])
  | (.value n l a v, st) =>
    if c = 34 then ((.afterValue n (l ++ [(a, v)]), st), [])
    else if c = 38 then ((.valueEntity n l a v [], st), [])
    else if AttrChar c then ((.value n l a (v ++ [c]), st), []) else ((.bad, st), [])
  | (.valueEntity n l a v e, st) =>
    if c = 59 then match entityChar e with
      | some x => ((.value n l a (v ++ [x]), st), [])
      | none => ((.bad, st), [])
    else ((.valueEntity n l a v (e ++ [c]), st), [])
  | (.afterValue n l, st) =>
    if c = 32 then ((.attrName n l [], st), [])
    else if c = 62 then ((.content, n :: st), [.start n l]) else ((.bad, st), [])
  | (.content, st) =>
    if c = 60 then ((.tag, st), [])
    else if c = 38 then ((.entity [], st), [])
    else if c = 13 then ((.cr, st), [])
    else if TextChar c then ((.content, st), [.text [c]]) else ((.bad, st), [])
  | (.cr, st) => if c = 10 then ((.content, st), [.text [10]]) else ((.bad, st), [])
  | (.entity e, st) =>
    if c = 59 then match entityChar e with
      | some x => ((.content, st), [.text [x]])
      | none => ((.bad, st), [])
    else ((.entity (e ++ [c]), st), [])
  | (.close n, []) => ((.bad, []), [])
  | (.close n, top :: st) =>
    if Letter c then ((.close (n ++ [c]), top :: st), [])
    else if c = 62 ∧ n = top then ((if st = [] then .epilog else .content, st), [.stop n]) else ((.bad, st), [])
  | (.epilog, st) => if c = 10 then ((.done, st), []) else ((.bad, st), [])
  | (.done, st) => ((.bad, st), [])
  | (.bad, st) => ((.bad, st), [])

/-- Many bytes. -/
def bytes (s : Mode × List Str) : Str → (Mode × List Str) × List Event
  | [] => (s, [])
  | c :: cs => let r := byte s c; let q := bytes r.1 cs; (q.1, r.2 ++ q.2)

/-- The parser. -/
@[reducible] def reference : Expat where
  State := Mode × List Str
  init := (.prolog (declaration ++ b!"\n<!--"), [])
  feed s c final := let r := bytes s c; (r.1, r.2, if final then decide (r.1.1 = .done) else decide (r.1.1 ≠ .bad))

theorem bytes_append (s : Mode × List Str) (a b : Str) :
    bytes s (a ++ b) = ((bytes (bytes s a).1 b).1, (bytes s a).2 ++ (bytes (bytes s a).1 b).2) := by
  induction a generalizing s with
  | nil => simp [bytes]
  | cons c a ih => simp only [List.cons_append, bytes, ih, List.append_assoc]

theorem bytes_bad (st : List Str) (a : Str) : bytes (.bad, st) a = ((.bad, st), []) := by
  induction a with
  | nil => rfl
  | cons c a ih => simp only [bytes, byte, ih, List.append_nil]

/-- Running one after the other. -/
theorem bytes_trans {s s' s'' : Mode × List Str} {a b : Str} {e e' : List Event} (h : bytes s a = (s', e)) (h' : bytes s' b = (s'', e')) :
    bytes s (a ++ b) = (s'', e ++ e') := by rw [bytes_append, h, h']

/-- However the bytes are cut, the reference parser does the same. -/
theorem feeds_reference (init : List Str) (last : Str) : ∀ (s : Mode × List Str),
    (bytes s (init.flatten ++ last)).1.1 = .done →
    feeds reference s (init.map (·, false) ++ [(last, true)]) = ((bytes s (init.flatten ++ last)).2, true) := by
  induction init with
  | nil =>
    intro s h
    have h : (bytes s last).1.1 = .done := by simpa using h
    simp [feeds, reference, h]
  | cons c init ih =>
    intro s h
    rw [List.flatten_cons, List.append_assoc, bytes_append] at h ⊢
    have hnb : (bytes s c).1.1 ≠ .bad := by
      intro hb
      rcases hs : (bytes s c).1 with ⟨m, st⟩
      rw [hs] at hb h
      simp only at hb
      subst hb
      rw [bytes_bad] at h
      cases h
    have := ih (bytes s c).1 h
    rw [List.map_cons, List.cons_append, feeds.eq_2]
    simp [hnb, this]

theorem letter_facts : ∀ c : UInt8, Letter c → c ≠ 47 ∧ c ≠ 32 ∧ c ≠ 62 ∧ c ≠ 61 ∧ c ≠ 59 :=
  forall_byte (P := fun c => Letter c → c ≠ 47 ∧ c ≠ 32 ∧ c ≠ 62 ∧ c ≠ 61 ∧ c ≠ 59) (by decide +kernel)

theorem bytes_name (st : List Str) (n : Str) (h : ∀ c ∈ n, Letter c) : ∀ p, bytes (.name p, st) n = ((.name (p ++ n), st), []) := by
  induction n with
  | nil => intro p; simp [bytes]
  | cons c n ih =>
    intro p
    rw [bytes, byte]
    simp only [if_pos (h c (by simp)), ih (fun x hx => h x (by simp [hx])) (p ++ [c])]
    simp

theorem bytes_attrName (st : List Str) (m : Str) (l : List (Str × Str)) (n : Str) (h : ∀ c ∈ n, Letter c) :
    ∀ p, bytes (.attrName m l p, st) n = ((.attrName m l (p ++ n), st), []) := by
  induction n with
  | nil => intro p; simp [bytes]
  | cons c n ih =>
    intro p
    rw [bytes, byte]
    simp only [if_pos (h c (by simp)), ih (fun x hx => h x (by simp [hx])) (p ++ [c])]
    simp

theorem bytes_close (top : Str) (st : List Str) (n : Str) (h : ∀ c ∈ n, Letter c) :
    ∀ p, bytes (.close p, top :: st) n = ((.close (p ++ n), top :: st), []) := by
  induction n with
  | nil => intro p; simp [bytes]
  | cons c n ih =>
    intro p
    rw [bytes, byte]
    simp only [if_pos (h c (by simp)), ih (fun x hx => h x (by simp [hx])) (p ++ [c])]
    simp

theorem bytes_value (st : List Str) (n : Str) (l : List (Str × Str)) (a : Str) (raw v : Str) (h : AttrValue raw v) :
    ∀ p, bytes (.value n l a p, st) raw = ((.value n l a (p ++ v), st), []) := by
  induction h with
  | nil => intro p; simp [bytes]
  | char c r v hc _ ih =>
    intro p
    rw [bytes, byte]
    simp only [if_neg hc.2.2.1, if_neg hc.2.2.2.1, if_pos hc, ih (p ++ [c])]
    simp
  | amp r v _ ih =>
    intro p
    have : bytes (.value n l a p, st) b!"&amp;" = ((.value n l a (p ++ [38]), st), []) := by
      simp [bytes, byte, entityChar]
    simpa using bytes_trans this (ih (p ++ [38]))
  | lt r v _ ih =>
    intro p
    have : bytes (.value n l a p, st) b!"&lt;" = ((.value n l a (p ++ [60]), st), []) := by
      simp [bytes, byte, entityChar]
    simpa using bytes_trans this (ih (p ++ [60]))
  | gt r v _ ih =>
    intro p
    have : bytes (.value n l a p, st) b!"&gt;" = ((.value n l a (p ++ [62]), st), []) := by
      simp [bytes, byte, entityChar]
    simpa using bytes_trans this (ih (p ++ [62]))

/-- One attribute after the space. -/
theorem bytes_attr (st : List Str) (n : Str) (l : List (Str × Str)) (a raw v : Str) (ha : Name a) (hv : AttrValue raw v) :
    bytes (.attrName n l [], st) (a ++ b!"=\"" ++ raw ++ b!"\"") = ((.afterValue n (l ++ [(a, v)]), st), []) := by
  have h1 := bytes_attrName st n l a ha.2 []
  have h2 : bytes (.attrName n l ([] ++ a), st) b!"=\"" = ((.value n l a [], st), []) := by
    have : ¬ Letter 61 := by decide
    simp [bytes, byte, this]
  have h3 := bytes_value st n l a raw v hv []
  have h4 : bytes (.value n l a ([] ++ v), st) b!"\"" = ((.afterValue n (l ++ [(a, v)]), st), []) := by
    simp [bytes, byte]
  exact bytes_trans (bytes_trans (bytes_trans h1 h2) h3) h4

/-- Attributes and the end of the tag, after a value. -/
theorem bytes_attrs (st : List Str) (n : Str) (s : Str) (l : List (Str × Str)) (h : Attrs s l) : ∀ l0,
    bytes (.afterValue n l0, st) (s ++ b!">") = ((.content, n :: st), [.start n (l0 ++ l)]) := by
  induction h with
  | nil => intro l0; simp [bytes, byte]
  | cons a raw v rest l ha hv _ _ ih =>
    intro l0
    have h0 : bytes (.afterValue n l0, st) b!" " = ((.attrName n l0 [], st), []) := by simp [bytes, byte]
    have := bytes_trans (bytes_trans h0 (bytes_attr st n l0 a raw v ha hv)) (ih (l0 ++ [(a, v)]))
    simpa [List.append_assoc] using this

/-- A start tag, after `<`. -/
theorem bytes_startTag (st : List Str) (n : Str) (s : Str) (l : List (Str × Str)) (hn : Name n) (h : Attrs s l) :
    bytes (.tag, st) (n ++ s ++ b!">") = ((.content, n :: st), [.start n l]) := by
  have h1 : bytes (.tag, st) n = ((.name n, st), []) := by
    obtain ⟨h0, hl⟩ := hn
    cases n with
    | nil => exact absurd rfl h0
    | cons c n =>
      have hc := hl c (by simp)
      rw [bytes, byte]
      simp only [if_neg (letter_facts c hc).1, if_pos hc, bytes_name st n (fun x hx => hl x (by simp [hx])) [c]]
      simp
  have n32 : ¬ Letter 32 := by decide
  have n62 : ¬ Letter 62 := by decide
  cases h with
  | nil =>
    have h2 : bytes (.name n, st) b!">" = ((.content, n :: st), [.start n []]) := by simp [bytes, byte, n62]
    simpa using bytes_trans h1 h2
  | cons a raw v rest l ha hv hr _ =>
    have h2 : bytes (.name n, st) b!" " = ((.attrName n [] [], st), []) := by simp [bytes, byte, n32]
    have := bytes_trans (bytes_trans (bytes_trans h1 h2) (bytes_attr st n [] a raw v ha hv)) (bytes_attrs st n rest l hr [(a, v)])
    simpa [List.append_assoc] using this

/-- An end tag. -/
theorem bytes_endTag (st : List Str) (n : Str) (hn : Name n) :
    bytes (.content, n :: st) (b!"</" ++ n ++ b!">") = ((if st = [] then .epilog else .content, st), [.stop n]) := by
  have h1 : bytes (.content, n :: st) b!"</" = ((.close [], n :: st), []) := by simp [bytes, byte]
  have h2 := bytes_close n st n hn.2 []
  have n62 : ¬ Letter 62 := by decide
  have h3 : bytes (.close ([] ++ n), n :: st) b!">" = ((if st = [] then .epilog else .content, st), [.stop n]) := by
    simp [bytes, byte, n62]
  simpa using bytes_trans (bytes_trans h1 h2) h3

/-- Content inside an element. -/
theorem bytes_content (s : Str) (es : List Event) (h : Content s es) : ∀ top st,
    bytes (.content, top :: st) s = ((.content, top :: st), es) := by
  induction h with
  | nil => intro top st; rfl
  | char c r es hc _ ih =>
    intro top st
    have h13 : c ≠ 13 := by
      rintro rfl
      exact absurd hc.1 (by decide)
    rw [bytes, byte]
    simp only [if_neg hc.2.2.1, if_neg hc.2.1, if_neg h13, if_pos hc, ih top st]
    simp
  | crlf r es _ ih =>
    intro top st
    have : bytes (.content, top :: st) [13, 10] = ((.content, top :: st), [.text [10]]) := by simp [bytes, byte]
    simpa using bytes_trans this (ih top st)
  | amp r es _ ih =>
    intro top st
    have : bytes (.content, top :: st) b!"&amp;" = ((.content, top :: st), [.text [38]]) := by simp [bytes, byte, entityChar]
    simpa using bytes_trans this (ih top st)
  | lt r es _ ih =>
    intro top st
    have : bytes (.content, top :: st) b!"&lt;" = ((.content, top :: st), [.text [60]]) := by simp [bytes, byte, entityChar]
    simpa using bytes_trans this (ih top st)
  | gt r es _ ih =>
    intro top st
    have : bytes (.content, top :: st) b!"&gt;" = ((.content, top :: st), [.text [62]]) := by simp [bytes, byte, entityChar]
    simpa using bytes_trans this (ih top st)
  | element n as l body es r es' hn has _ _ ih ih' =>
    intro top st
    have h0 : bytes (.content, top :: st) b!"<" = ((.tag, top :: st), []) := by simp [bytes, byte]
    have h1 := bytes_startTag (top :: st) n as l hn has
    have h2 := ih n (top :: st)
    have h3 := bytes_endTag (top :: st) n hn
    simp only [reduceCtorEq, if_false] at h3
    have := bytes_trans (bytes_trans (bytes_trans (bytes_trans h0 h1) h2) h3) (ih' top st)
    simpa [List.append_assoc] using this

/-- The prolog. -/
theorem bytes_prolog (st : List Str) : ∀ p : Str, p ≠ [] → bytes (.prolog p, st) p = ((.comment 0, st), [])
  | [], h => absurd rfl h
  | [x], _ => by simp [bytes, byte]
  | x :: y :: r, _ => by
    have := bytes_prolog st (y :: r) (by simp)
    rw [bytes, byte]
    simp only [if_true, this]
    simp

/-- A comment up to its end: the number of hyphens at the end is 0 or 1 and no two are in a row. -/
theorem bytes_comment (st : List Str) (c : Str) : ∀ h, h ≤ 1 → (∀ x ∈ c, Printable x) → (∀ a b, c ≠ a ++ b!"--" ++ b) →
    (h = 1 → c.head? ≠ some 45) → ∃ h', h' ≤ 1 ∧ bytes (.comment h, st) c = ((.comment h', st), []) ∧
      (h' = 0 ↔ (c = [] ∧ h = 0 ∨ c ≠ [] ∧ c.getLast? ≠ some 45)) := by
  induction c with
  | nil => intro h hh _ _ _; exact ⟨h, hh, rfl, by simp⟩
  | cons x c ih =>
    intro h hh hp hno h1
    have hrec : ∀ a b, c ≠ a ++ b!"--" ++ b := fun a b e => hno (x :: a) b (by rw [e]; simp)
    have hp' : ∀ y ∈ c, Printable y := fun y hy => hp y (by simp [hy])
    have hx := hp x (by simp)
    by_cases h45 : x = 45
    · subst h45
      have h0 : h = 0 := by
        rcases Nat.lt_or_ge h 1 with h' | h'
        · omega
        · exact absurd rfl (h1 (by omega))
      subst h0
      have hc : c.head? ≠ some 45 := by
        cases c with
        | nil => simp
        | cons y c =>
          simp only [List.head?_cons, ne_eq, Option.some.injEq]
          rintro rfl
          exact hno [] c rfl
      obtain ⟨h', hh', e, hl⟩ := ih 1 (by omega) hp' hrec (fun _ => hc)
      refine ⟨h', hh', ?_, ?_⟩
      · rw [bytes, byte]; simp [e]
      · rw [hl]
        cases c with
        | nil => simp
        | cons y c => simp
    · obtain ⟨h', hh', e, hl⟩ := ih 0 (by omega) hp' hrec (by simp)
      refine ⟨h', hh', ?_, ?_⟩
      · rw [bytes, byte]
        simp only [if_neg (show ¬ 2 ≤ h by omega), if_neg h45, if_pos hx, e]
        simp
      · rw [hl]
        cases c with
        | nil => simp [h45]
        | cons y c => simp

/-- The reference parser parses every document of the grammar. -/
theorem bytes_document (s : Str) (es : List Event) (h : Document s es) :
    bytes reference.init s = ((.done, []), es) := by
  obtain ⟨c, n, as, l, body, bes, hc, hn, has, hb, rfl, rfl⟩ := h
  have h1 : bytes reference.init (declaration ++ b!"\n<!--") = ((.comment 0, []), []) := bytes_prolog [] _ (by decide)
  obtain ⟨h', _, h2, hz⟩ := bytes_comment [] c 0 (by omega) hc.1 hc.2.1 (by simp)
  have hz : h' = 0 := by
    rw [hz]
    cases c with
    | nil => simp
    | cons x c => exact Or.inr ⟨by simp, hc.2.2⟩
  subst hz
  have h3 : bytes (.comment 0, []) b!"-->\n<" = ((.tag, []), []) := by simp [bytes, byte]
  have h4 := bytes_startTag [] n as l hn has
  have h5 := bytes_content body bes hb n []
  have h6 := bytes_endTag [] n hn
  simp only [if_true] at h6
  have h7 : bytes (.epilog, []) b!"\n" = ((.done, []), []) := by simp [bytes, byte]
  have := bytes_trans (bytes_trans (bytes_trans (bytes_trans (bytes_trans (bytes_trans h1 h2) h3) h4) h5) h6) h7
  simpa [List.append_assoc] using this

/-- The assumptions about expat can be met. -/
theorem reference_conforms : Conforms reference := by
  rintro s es hd chunks ⟨init, last, rfl⟩ hbytes
  have hb : init.flatten ++ last = s := by
    rw [← hbytes, bytesOf, List.map_append, List.map_map]
    simp [Function.comp_def]
  have := bytes_document s es hd
  rw [← hb] at this
  rw [feeds_reference init last reference.init (by rw [this]), this]
  exact ⟨rfl, rfl⟩

/-- If the bytes do not lead to the end, the reference parser does not succeed. -/
theorem feeds_reference_fails (init : List Str) (last : Str) : ∀ (s : Mode × List Str),
    (bytes s (init.flatten ++ last)).1.1 ≠ .done → (bytes s (init.flatten ++ last)).2 = [] →
    feeds reference s (init.map (fun c => (c, false)) ++ [(last, true)]) = ([], false) := by
  induction init with
  | nil =>
    intro s h he
    have h : (bytes s last).1.1 ≠ .done := by simpa using h
    have he : (bytes s last).2 = [] := by simpa using he
    simp [feeds, reference, h, he]
  | cons c init ih =>
    intro s h he
    rw [List.flatten_cons, List.append_assoc, bytes_append] at h he
    obtain ⟨he1, he2⟩ := List.append_eq_nil_iff.mp he
    have := ih (bytes s c).1 h he2
    rw [List.map_cons, List.cons_append, feeds.eq_2]
    by_cases hb : (bytes s c).1.1 = .bad
    · simp [hb, he1]
    · simp [hb, this, he1]

/-- The assumption about hyphens can be met too. -/
theorem reference_rejects : RejectsDoubleHyphen reference := by
  rintro c d rest chunks hp hno hd ⟨init, last, rfl⟩ hbytes
  have hb : init.flatten ++ last = declaration ++ b!"\n<!--" ++ (c ++ (b!"--" ++ d :: rest)) := by
    have e : declaration ++ b!"\n<!--" ++ (c ++ (b!"--" ++ d :: rest)) = declaration ++ b!"\n<!--" ++ c ++ b!"--" ++ d :: rest := by
      simp only [List.append_assoc]
    rw [e, ← hbytes, bytesOf, List.map_append, List.map_map]
    simp [Function.comp_def]
  have h1 : bytes reference.init (declaration ++ b!"\n<!--") = ((.comment 0, []), []) := bytes_prolog [] _ (by decide)
  obtain ⟨h', hle, h2, _⟩ := bytes_comment [] c 0 (by omega) hp hno (by simp)
  have h3 : bytes (.comment h', []) (b!"--" ++ d :: rest) = ((.bad, []), []) := by
    obtain rfl | rfl : h' = 0 ∨ h' = 1 := by omega
    · simp [bytes, byte, hd, bytes_bad]
    · simp [bytes, byte, bytes_bad]
  apply feeds_reference_fails
  · rw [hb, bytes_trans h1 (bytes_trans h2 h3)]
    simp
  · rw [hb, bytes_trans h1 (bytes_trans h2 h3)]
    simp

end Verif.Xml
