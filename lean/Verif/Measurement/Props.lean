import Verif.Measurement.Model
import Verif.Measurement.Spec
import Verif.Base64.Props

/-!
# Properties C25, C27, C28, C31, C32, C33, C56–C58: measurements
-/

set_option linter.unusedSimpArgs false

namespace Verif.Measurement
open Spec

/-! ## C25 -/

theorem findSpecial_none {s : Str} : ∀ {b : Nat}, findSpecial s b = none → s.flatMap xmlChar = s := by
  induction s with
  | nil => intros; rfl
  | cons c s ih =>
    intro b h
    rw [findSpecial] at h
    split at h
    · cases h
    · next hc =>
      simp only [not_or] at hc
      simp [xmlChar, hc.1, hc.2.1, hc.2.2, ih h]

theorem findSpecial_some {s : Str} : ∀ {b i : Nat}, findSpecial s b = some i →
    ∃ p c r, s = p ++ c :: r ∧ i = b + p.length ∧ p.flatMap xmlChar = p ∧ (c = 38 ∨ c = 60 ∨ c = 62) := by
  induction s with
  | nil => intro b i h; cases h
  | cons c s ih =>
    intro b i h
    rw [findSpecial] at h
    split at h
    · next hc => cases h; exact ⟨[], c, s, rfl, by simp, rfl, hc⟩
    · next hc =>
      obtain ⟨p, d, r, rfl, rfl, hp, hd⟩ := ih h
      simp only [not_or] at hc
      exact ⟨c :: p, d, r, rfl, by simp; omega, by simp [xmlChar, hc.1, hc.2.1, hc.2.2, hp], hd⟩

theorem escapeLoop_ok (str : Str) : ∀ (fuel j : Nat) (result : Str), j ≤ str.length → str.length - j < fuel →
    escapeLoop str fuel j (findSpecial (str.drop j) j) result = .ok (result ++ (str.drop j).flatMap xmlChar)
  | 0, j, _, _, h => by omega
  | fuel + 1, j, result, hj, h => by
    cases hf : findSpecial (str.drop j) j with
    | none => rw [escapeLoop, findSpecial_none hf]
    | some i =>
      obtain ⟨p, c, r, e, rfl, hp, hc⟩ := findSpecial_some hf
      have hlen := congrArg List.length e
      simp at hlen
      have hget : str[j + p.length]? = some c := by
        have : (str.drop j)[p.length]? = some c := by rw [e]; simp
        simpa using this
      have hdrop : str.drop (j + p.length + 1) = r := by
        rw [Nat.add_assoc, ← List.drop_drop, e]; simp
      rw [escapeLoop]
      simp only [hget]
      rw [escapeLoop_ok str fuel (j + p.length + 1) _ (by omega) (by omega), hdrop, e]
      simp only [List.flatMap_append, List.flatMap_cons, hp]
      rw [show j + p.length - j = p.length by omega]
      rcases hc with rfl | rfl | rfl <;> simp [xmlChar]

/-- **C25.** Escaping replaces each markup character by its entity and changes nothing else. -/
theorem C25_escape_exact (s : Str) : applyEscapeSequences s = .ok (s.flatMap xmlChar) := by
  rw [applyEscapeSequences, if_neg]
  · have := escapeLoop_ok s (s.length + 1) 0 [] (by omega) (by omega)
    simpa using this
  · intro h
    obtain ⟨p, c, r, e, hl, _⟩ := findSpecial_some h
    have := congrArg List.length e
    simp at this; omega

/-- **C25.** The printed form contains no angle bracket, every ampersand in it starts one of the
three entities, and reading the entities back gives the content. -/
theorem C25_escape_invertible (s out : Str) (h : applyEscapeSequences s = .ok out) :
    60 ∉ out ∧ 62 ∉ out ∧
    (∀ a b, out = a ++ 38 :: b → b!"amp;" <+: b ∨ b!"lt;" <+: b ∨ b!"gt;" <+: b) ∧
    unescape out = s := by
  rw [C25_escape_exact] at h
  cases h
  induction s with
  | nil => simp [unescape]
  | cons c s ih =>
    obtain ⟨h1, h2, h3, h4⟩ := ih
    have step : ∀ (e : Str), xmlChar c = e → (60 ∉ e ∧ 62 ∉ e) →
        (∀ a b, e = a ++ 38 :: b → a = [] ∧ (b = b!"amp;" ∨ b = b!"lt;" ∨ b = b!"gt;")) →
        (∀ r, unescape (e ++ r) = c :: unescape r) →
        60 ∉ (c :: s).flatMap xmlChar ∧ 62 ∉ (c :: s).flatMap xmlChar ∧
        (∀ a b, (c :: s).flatMap xmlChar = a ++ 38 :: b → b!"amp;" <+: b ∨ b!"lt;" <+: b ∨ b!"gt;" <+: b) ∧
        unescape ((c :: s).flatMap xmlChar) = c :: s := by
      intro e he hm hamp hu
      simp only [List.flatMap_cons, he]
      refine ⟨by simp only [List.mem_append, not_or]; exact ⟨hm.1, h1⟩, by simp only [List.mem_append, not_or]; exact ⟨hm.2, h2⟩, ?_,
        by rw [hu, h4]⟩
      intro a b hab
      rcases List.append_eq_append_iff.mp hab with ⟨d, e1, e2⟩ | ⟨d, e1, e2⟩
      · exact h3 d b e2
      · cases d with
        | nil => simp at e2; exact h3 [] b (by simp [e2])
        | cons x d =>
          simp at e2
          obtain ⟨rfl, rfl⟩ := e2
          obtain ⟨_, hd⟩ := hamp a d e1
          rcases hd with rfl | rfl | rfl
          · exact Or.inl (List.prefix_append _ _)
          · exact Or.inr (Or.inl (List.prefix_append _ _))
          · exact Or.inr (Or.inr (List.prefix_append _ _))
    by_cases c1 : c = 38
    · subst c1
      apply step b!"&amp;" (by decide) (by decide)
      · intro a b e
        rcases a with _ | ⟨x, _ | ⟨y, _ | ⟨z, _ | ⟨w, _ | ⟨v, a⟩⟩⟩⟩⟩ <;> simp at e
        · exact ⟨rfl, Or.inl (by rw [← e])⟩
      · intro r; simp [unescape]
    by_cases c2 : c = 60
    · subst c2
      apply step b!"&lt;" (by decide) (by decide)
      · intro a b e
        rcases a with _ | ⟨x, _ | ⟨y, _ | ⟨z, _ | ⟨w, a⟩⟩⟩⟩ <;> simp at e
        · exact ⟨rfl, Or.inr (Or.inl (by rw [← e]))⟩
      · intro r; simp [unescape]
    by_cases c3 : c = 62
    · subst c3
      apply step b!"&gt;" (by decide) (by decide)
      · intro a b e
        rcases a with _ | ⟨x, _ | ⟨y, _ | ⟨z, _ | ⟨w, a⟩⟩⟩⟩ <;> simp at e
        · exact ⟨rfl, Or.inr (Or.inr (by rw [← e]))⟩
      · intro r; simp [unescape]
    · apply step [c] (by simp [xmlChar, c1, c2, c3]) (by simp [Ne.symm c2, Ne.symm c3])
      · intro a b e
        rcases a with _ | ⟨x, a⟩
        · simp at e; exact absurd e.1 c1
        · simp at e
      · intro r
        rw [List.singleton_append, unescape.eq_4]
        all_goals simp [c1]

example : applyEscapeSequences b!"a<b&&c" = .ok b!"a&lt;b&amp;&amp;c" := by decide

/-- **C25.** Different contents print differently. -/
theorem C25_escape_injective (s t : Str) (h : applyEscapeSequences s = applyEscapeSequences t) : s = t := by
  rw [← (C25_escape_invertible s _ (C25_escape_exact s)).2.2.2,
    ← (C25_escape_invertible t _ (C25_escape_exact t)).2.2.2]
  rw [C25_escape_exact, C25_escape_exact] at h
  rw [Except.ok.inj h]

/-- **C25.** What a measurement prints: one element whose body is safe text for the content, unless escaping was switched off
for the measurement, when the body is the content itself. -/
theorem C25_printed :
    (∀ d : DataM, ∃ body, (Meas.data d).print = .ok (element b!"DartMeasurement" d.name d.kind.typeName
        (optionalAttr b!"encoding" d.encoding ++ optionalAttr b!"compression" d.compression) body) ∧
      (d.escape = true → SafeFor d.content body) ∧ (d.escape = false → body = d.content)) ∧
    (∀ f : FileM, ∃ body, (Meas.file f).print = .ok (element b!"DartMeasurementFile" f.name f.type [] body) ∧
      (f.escape = true → SafeFor f.fileName body) ∧ (f.escape = false → body = f.fileName)) := by
  constructor
  · intro d
    have hs : (Meas.data d).startTag = b!"<" ++ b!"DartMeasurement" ++ b!" name=\"" ++ d.name ++ b!"\" type=\"" ++ d.kind.typeName ++ b!"\"" ++
        (optionalAttr b!"encoding" d.encoding ++ optionalAttr b!"compression" d.compression) ++ b!">" := by
      simp only [Meas.startTag, Meas.element, optionalAttr, ne_eq, ite_not, List.append_assoc]
      split <;> split <;> simp
    cases he : d.escape with
    | true =>
      refine ⟨d.content.flatMap xmlChar, ?_, fun _ => C25_escape_invertible _ _ (C25_escape_exact _), fun h => nomatch h⟩
      simp only [Meas.print, Meas.printContent, Meas.escape, he, if_true, Meas.content, C25_escape_exact, hs, Meas.endTag, Meas.element,
        element, List.append_assoc, bind, Except.bind, pure, Except.pure]
    | false =>
      refine ⟨d.content, ?_, fun h => absurd h (by decide), fun _ => rfl⟩
      simp only [Meas.print, Meas.printContent, Meas.escape, he, Meas.content, hs, Meas.endTag, Meas.element,
        element, List.append_assoc, bind, Except.bind, pure, Except.pure, Bool.false_eq_true, if_false]
  · intro f
    cases he : f.escape with
    | true =>
      refine ⟨f.fileName.flatMap xmlChar, ?_, fun _ => C25_escape_invertible _ _ (C25_escape_exact _), fun h => nomatch h⟩
      simp only [Meas.print, Meas.printContent, Meas.escape, he, if_true, Meas.content, C25_escape_exact, Meas.startTag, Meas.endTag, Meas.element,
        element, List.append_assoc, bind, Except.bind, pure, Except.pure, List.append_nil, List.nil_append, List.cons_append]
    | false =>
      refine ⟨f.fileName, ?_, fun h => absurd h (by decide), fun _ => rfl⟩
      simp only [Meas.print, Meas.printContent, Meas.escape, he, Meas.content, Meas.startTag, Meas.endTag, Meas.element,
        element, List.append_assoc, bind, Except.bind, pure, Except.pure, Bool.false_eq_true, if_false, List.append_nil, List.nil_append, List.cons_append]

example : (Meas.data { kind := .plain, name := b!"n", content := b!"a<b" }).print =
    .ok b!"<DartMeasurement name=\"n\" type=\"text/plain\">a&lt;b</DartMeasurement>" := by decide

/-! ## C27, C28 -/

theorem horner_append (a b : Str) : horner (a ++ b) = horner a * 10 ^ b.length + horner b := by
  induction a with
  | nil => simp [horner]
  | cons c a ih => simp [horner, ih, Nat.pow_add, Nat.add_mul, Nat.mul_assoc, Nat.add_assoc]

theorem ofNat_digit (k : Nat) (h : k < 10) : (UInt8.ofNat (48 + k)).toNat = 48 + k := by
  simp; omega

theorem natText_spec (n : Nat) : natText n ≠ [] ∧ (∀ c ∈ natText n, 48 ≤ c ∧ c ≤ 57) ∧
    horner (natText n) = n ∧ ((natText n).head? = some 48 → (natText n).length = 1) := by
  have hd : ∀ k < 10, (48 : UInt8) ≤ UInt8.ofNat (48 + k) ∧ UInt8.ofNat (48 + k) ≤ 57 := by decide
  have key : ∀ n, natText n ≠ [] ∧ (∀ c ∈ natText n, 48 ≤ c ∧ c ≤ 57) ∧ horner (natText n) = n ∧
      (0 < n → (natText n).head? ≠ some 48) := by
    intro n
    induction n using Nat.strongRecOn with
    | _ n ih =>
      rw [natText]
      split
      · next h =>
        refine ⟨by simp, by simpa using hd n h, by simp [horner]; omega, ?_⟩
        intro hpos h0
        have h0 : UInt8.ofNat (48 + n) = 48 := Option.some.inj h0
        have := congrArg UInt8.toNat h0
        rw [ofNat_digit n h] at this
        have : n = 0 := by simpa using this
        omega
      · next h =>
        obtain ⟨h1, h2, h3, h4⟩ := ih (n / 10) (by omega)
        refine ⟨by simp, ?_, ?_, ?_⟩
        · intro c hc
          rcases List.mem_append.mp hc with hc | hc
          · exact h2 c hc
          · rw [List.mem_singleton.mp hc]; exact hd (n % 10) (by omega)
        · rw [horner_append, h3]
          have := ofNat_digit (n % 10) (by omega)
          simp only [horner, this, List.length_singleton, List.length_nil]; omega
        · intro _
          rw [List.head?_append]
          cases hh : natText (n / 10) with
          | nil => exact absurd hh h1
          | cons x l => simp; have := h4 (by omega); rw [hh] at this; simpa using this
  obtain ⟨h1, h2, h3, h4⟩ := key n
  refine ⟨h1, h2, h3, fun h => ?_⟩
  rcases Nat.eq_zero_or_pos n with rfl | hp
  · rw [natText]; simp
  · exact absurd h (h4 hp)

theorem decValue_eq_horner (s : Str) : decValue s = horner s := by
  have : ∀ (s : Str) a, s.foldl (fun acc c => acc * 10 + (c.toNat - 48)) a = a * 10 ^ s.length + horner s := by
    intro s
    induction s with
    | nil => intro a; simp [horner]
    | cons c s ih =>
      intro a
      simp only [List.foldl_cons, ih, horner, List.length_cons, Nat.pow_succ, Nat.add_mul]
      rw [Nat.mul_assoc, Nat.mul_comm 10, Nat.add_assoc]
  simpa [decValue] using this s 0

theorem isDec_iff (c : UInt8) : isDec c = true ↔ 48 ≤ c ∧ c ≤ 57 := by simp [isDec]

theorem readInt_digits (ds : Str) (h0 : ds ≠ []) (hd : ∀ c ∈ ds, 48 ≤ c ∧ c ≤ 57) :
    readInt ds = some (horner ds : Int) ∧ readInt (45 :: ds) = some (-(horner ds : Int)) := by
  have hblank : ∀ c : UInt8, isDec c = true → isBlank c = false ∧ c ≠ 45 ∧ c ≠ 43 :=
    forall_byte (P := fun c => isDec c = true → isBlank c = false ∧ c ≠ 45 ∧ c ≠ 43) (by decide +kernel)
  have htake : ds.takeWhile isDec = ds := by
    have : ∀ l : Str, (∀ c ∈ l, 48 ≤ c ∧ c ≤ 57) → l.takeWhile isDec = l := by
      intro l
      induction l with
      | nil => intros; rfl
      | cons c l ih =>
        intro h
        rw [List.takeWhile_cons, if_pos ((isDec_iff c).mpr (h c (by simp))), ih (fun x hx => h x (by simp [hx]))]
    exact this ds hd
  constructor
  · cases ds with
    | nil => exact absurd rfl h0
    | cons c r =>
      obtain ⟨hb, h45, h43⟩ := hblank c ((isDec_iff c).mpr (hd c (by simp)))
      have e : (c :: r).dropWhile isBlank = c :: r := by rw [List.dropWhile_cons, if_neg (by simp [hb])]
      rw [readInt, e]
      split
      next neg s heq =>
      split at heq
      · next h => simp at h; exact absurd h.1 h45
      · next h => simp at h; exact absurd h.1 h43
      · cases heq
        rw [htake]; simp only [decValue_eq_horner]
        simp
  · have e : (45 :: ds).dropWhile isBlank = 45 :: ds := by rw [List.dropWhile_cons, if_neg (by decide)]
    rw [readInt, e]
    simp only [htake, decValue_eq_horner]
    simp [h0]

/-- **C27.** Setting an integer value stores its canonical decimal notation, and reading it gives
the value back, for every `int`. -/
theorem C27_integer_roundtrip (d : DataM) (v : Int) (hmin : intMin ≤ v) (hmax : v ≤ intMax) :
    IsDecimal v (d.setInteger v).content ∧ getInteger (d.setInteger v).content = v := by
  obtain ⟨h1, h2, h3, h4⟩ := natText_spec v.natAbs
  obtain ⟨r1, r2⟩ := readInt_digits _ h1 h2
  refine ⟨⟨natText v.natAbs, ?_, h1, h2, h3, h4⟩, ?_⟩
  · simp only [DataM.setInteger, DataM.setContent, intText]; split <;> simp
  · simp only [DataM.setInteger, DataM.setContent, intText, getInteger]
    rw [h3] at r1 r2
    simp only [intMin, intMax] at *
    by_cases hv : v < 0
    · rw [if_pos hv, r2]; simp only; omega
    · rw [if_neg hv, r1]; simp only; omega

example : ((DataM.mk (.num .integer) [] [] b!"none" b!"none" true none).setInteger (-1205)).content = b!"-1205" := by
  decide +kernel

/-- **C27.** A decimal notation determines its value, so different integers are recorded differently. -/
theorem C27_decimal_unique (v w : Int) (s : Str) (h : IsDecimal v s) (h' : IsDecimal w s) : v = w := by
  obtain ⟨ds, rfl, h0, hd, hh, _⟩ := h
  obtain ⟨es, e, g0, gd, gh, _⟩ := h'
  have nominus : ∀ ds : Str, (∀ c ∈ ds, 48 ≤ c ∧ c ≤ (57 : UInt8)) → ∀ r, ds ≠ 45 :: r := by
    rintro ds hd r rfl
    exact absurd (hd 45 (by simp)) (by decide)
  by_cases hv : v < 0 <;> by_cases hw : w < 0 <;> simp [hv, hw] at e
  · subst e; omega
  · exact absurd e.symm (nominus _ gd _)
  · exact absurd e (nominus _ hd _)
  · subst e; omega

/-- **C27.** Setting a Boolean value and reading it gives the value back. -/
theorem C27_boolean_roundtrip (d : DataM) (b : Bool) : getBoolean (d.setBoolean b).content = b := by
  cases b <;> simp [DataM.setBoolean, DataM.setContent] <;> decide

/-- **C28.** The recorded value of a `long` is its residue modulo 2^32 in the range of `int`: it is the
value itself exactly for values in that range, and two values are recorded alike exactly when they are
congruent modulo 2^32. -/
theorem C28_long_truncated (d : DataM) (v w : Int) :
    getInteger (d.setInteger (longToInt v)).content = longToInt v ∧
    (getInteger (d.setInteger (longToInt v)).content = v ↔ -2147483648 ≤ v ∧ v ≤ 2147483647) ∧
    ((d.setInteger (longToInt v)).content = (d.setInteger (longToInt w)).content ↔
      ∃ k : Int, v = w + k * 4294967296) := by
  have rng : ∀ v, intMin ≤ longToInt v ∧ longToInt v ≤ intMax := by
    intro v; simp only [intMin, intMax, longToInt]; omega
  have e1 := fun v => (C27_integer_roundtrip d (longToInt v) (rng v).1 (rng v).2).2
  refine ⟨e1 v, ?_, ?_⟩
  · rw [e1]; simp only [longToInt]; omega
  · constructor
    · intro h
      have h2 : longToInt v = longToInt w := by rw [← e1 v, ← e1 w, h]
      simp only [longToInt] at h2
      exact ⟨(v - w) / 4294967296, by omega⟩
    · rintro ⟨k, rfl⟩
      have : longToInt (w + k * 4294967296) = longToInt w := by simp only [longToInt]; omega
      rw [this]

/-- **C28, negative.** A `long` outside the range of `int` is recorded as another number. -/
theorem C28_long_lost : ¬ ∀ (d : DataM) (v : Int), -2 ^ 63 ≤ v → v < 2 ^ 63 →
    getInteger (d.setInteger (longToInt v)).content = v := by
  intro h
  have := h { kind := .num .integer } 4294967296 (by decide) (by decide)
  rw [(C28_long_truncated _ _ 0).2.1] at this
  omega

/-! ## C31, C56: raw data -/

/-- Calls that read a data measurement or change only its attributes. -/
inductive Reading where
  | getData | getSize | setName (n : Str) | setEncoding (e : Str) | setCompression (c : Str)
  | compareTo (other : DataM) | compareFrom (other : DataM) | setEscape (b : Bool)

/-- The effect of such a call on the object. -/
def Reading.run (d : DataM) : Reading → DataM
  | .getData => d.getData.1
  | .getSize => d.getSize.1
  | .setName n => { d with name := n }
  | .setEncoding e => d.setEncoding e
  | .setCompression c => d.setCompression c
  | .compareTo o => (d.isEqual o).1
  | .compareFrom o => (o.isEqual d).2.1
  | .setEscape b => { d with escape := b }

theorem getData_cached {d : DataM} {b : List Cell} (h : d.data = some b) : d.getData = (d, .ok b) := by
  simp [DataM.getData, h]

theorem getSize_cached {d : DataM} {b : List Cell} (h : d.data = some b) : d.getSize = (d, .ok b.length) := by
  simp [DataM.getSize, h]

theorem reading_keeps {d : DataM} {b : List Cell} (h : d.data = some b) (r : Reading) : (r.run d).data = some b := by
  cases r with
  | getData => rw [Reading.run, getData_cached h]; exact h
  | getSize => rw [Reading.run, getSize_cached h]; exact h
  | setName n => exact h
  | setEncoding n => exact h
  | setCompression n => exact h
  | setEscape b => exact h
  | compareTo o =>
    simp only [Reading.run, DataM.isEqual, getSize_cached h]
    repeat' split
    all_goals first
      | exact h
      | (rename_i heq; rw [getData_cached h] at heq; cases heq <;> exact h)
  | compareFrom o =>
    simp only [Reading.run, DataM.isEqual, getSize_cached h, getData_cached h]
    repeat' split
    all_goals exact h

/-- **C31.** Bytes set without compression and without base64 encoding are the bytes read,
whatever happened to the object before (`d` is arbitrary) and whatever calls follow that do not set the content. -/
theorem C31_raw_data_read (d : DataM) (bytes : Str) (after : List Reading)
    (henc : d.encoding ≠ b!"base64") (hcomp : d.compression = b!"none") :
    (d.setData bytes).2 = .ok () ∧
    (after.foldl Reading.run (d.setData bytes).1).getData.2 = .ok (bytes.map some) ∧
    (after.foldl Reading.run (d.setData bytes).1).getSize.2 = .ok bytes.length := by
  have h0 : (d.setData bytes).2 = .ok () ∧ (d.setData bytes).1.data = some (bytes.map some) := by
    simp only [DataM.setData, hcomp]; simp [henc]
  refine ⟨h0.1, ?_⟩
  have : (after.foldl Reading.run (d.setData bytes).1).data = some (bytes.map some) := by
    generalize (d.setData bytes).1 = e at *
    have h1 := h0.2
    clear h0
    induction after generalizing e with
    | nil => exact h1
    | cons r after ih => exact ih _ (reading_keeps h1 r)
  rw [getData_cached this, getSize_cached this]
  simp

example : (({ kind := .plain, content := b!"old" } : DataM).setData b!"new").1.getData.2 =
    .ok (b!"new".map some) := by decide

/-- **C31.** A content set as text is read as these bytes when there is no encoding. -/
theorem C31_content_read (d : DataM) (s : Str) (henc : d.encoding = b!"none") :
    (d.setContent s).getData.2 = .ok (s.map some) ∧ (d.setContent s).getSize.2 = .ok s.length := by
  simp [DataM.setContent, DataM.getData, DataM.getSize, DataM.update, henc]

/-- **C56, negative.** Raw data that was set is not what is printed: the text content stays as it was, so the
printed element does not depend on the data. -/
theorem C56_raw_data_not_printed (d : DataM) (bytes : Str) (henc : d.encoding ≠ b!"base64") :
    (Meas.data (d.setData bytes).1).print = (Meas.data d).print := by
  have : (d.setData bytes).1 = { d with data := (d.setData bytes).1.data } := by
    simp only [DataM.setData, henc]
    split <;> split <;> simp_all
  rw [this]; rfl

/-- **C56.** Copies and assignments keep name, content, encoding, compression and escaping, but not data set raw:
the copy reads as its text content. -/
theorem C56_copy_drops_data (d e : DataM) (bytes : Str) (henc : d.encoding = b!"none") :
    (Meas.data d.copy).print = (Meas.data d).print ∧ e.assign d = d.copy ∧
    ((d.setData bytes).1.copy).getData.2 = .ok (d.content.map some) := by
  refine ⟨rfl, rfl, ?_⟩
  simp only [DataM.setData, henc]
  split <;> split <;> simp_all [DataM.copy, DataM.getData, DataM.update]

/-! ## C32 -/

theorem getData_base64 (d : DataM) (s : Str) (henc : d.encoding = b!"base64") :
    ((d.setContent s).getData).2 =
      match Base64.isBase64 false s with
      | .error f => .error f
      | .ok n => if n ≠ 0 then
          match overlay (Base64.decode false s).written (List.replicate n none) with
          | .error f => .error f
          | .ok block => (Base64.decode false s).outcome.map fun _ => block
        else .ok (s.map some) := by
  simp only [DataM.setContent, DataM.getData, DataM.update, henc]
  rw [if_neg (by decide), if_pos trivial]
  cases h : Base64.isBase64 false s with
  | error f => rfl
  | ok n =>
    simp only
    by_cases hn : n ≠ 0
    · rw [if_pos hn, if_pos hn]
      cases overlay (Base64.decode false s).written (List.replicate n none) with
      | error f => rfl
      | ok block =>
        simp only
        cases (Base64.decode false s).outcome <;> rfl
    · rw [if_neg hn, if_neg hn]

open Verif.Base64 Verif.Base64.Spec in
/-- The standard text of data whose length is no multiple of three: digits, then padding up to four. -/
theorem text_padded {data : Str} (h : data.length % 3 ≠ 0) : ∃ ds : Str, ds.length % 4 = data.length % 3 + 1 ∧ (∀ c ∈ ds, isDigit c = true) ∧
    text data = ds ++ List.replicate (4 - ds.length % 4) 61 := by
  have hd : ∀ v < 64, isDigit (digit v) = true := by decide +kernel
  induction data using three_induction with
  | h0 => simp at h
  | h1 a =>
    have := a.toNat_lt
    refine ⟨[digit (a.toNat / 4), digit (16 * (a.toNat % 4))], by rfl, ?_, by simp [text_one, List.replicate]⟩
    simp only [List.mem_cons, List.not_mem_nil, or_false]
    rintro c (rfl | rfl)
    · exact hd _ (by omega)
    · exact hd _ (by omega)
  | h2 a b =>
    have := a.toNat_lt; have := b.toNat_lt
    refine ⟨[digit (a.toNat / 4), digit (16 * (a.toNat % 4) + b.toNat / 16), digit (4 * (b.toNat % 16))], by rfl, ?_,
      by simp [text_two, List.replicate]⟩
    simp only [List.mem_cons, List.not_mem_nil, or_false]
    rintro c (rfl | rfl | rfl)
    · exact hd _ (by omega)
    · exact hd _ (by omega)
    · exact hd _ (by omega)
  | h3 a b c r ih =>
    have := a.toNat_lt; have := b.toNat_lt; have := c.toNat_lt
    obtain ⟨ds, h0, hds, e⟩ := ih (by simpa [Nat.add_assoc] using h)
    rw [text_three, e]
    refine ⟨digit (a.toNat / 4) :: digit (16 * (a.toNat % 4) + b.toNat / 16) ::
      digit (4 * (b.toNat % 16) + c.toNat / 64) :: digit (c.toNat % 64) :: ds, by simpa [Nat.add_assoc] using h0, ?_, by simp [Nat.add_assoc]⟩
    simp only [List.mem_cons]
    rintro x (rfl | rfl | rfl | rfl | hx)
    · exact hd _ (by omega)
    · exact hd _ (by omega)
    · exact hd _ (by omega)
    · exact hd _ (by omega)
    · exact hds x hx

open Verif.Base64 Verif.Base64.Spec in
/-- What `IsBase64` says about an encoding with line breaks. -/
theorem isBase64_encoded (data out : Str) (h : encode true data = .ok out) :
    ∃ n, isBase64 false out = .ok n ∧
      (data.length % 3 ≠ 0 → n = data.length / 3 * 4 + data.length % 3 + 1) ∧
      (data.length % 3 = 0 → data.length < 106 → n = data.length / 3 * 4) ∧
      (data.length % 3 = 0 → 106 ≤ data.length → n = 0) := by
  have hshape : ∃ X k, out = X ++ List.replicate k 0 ∧ core X = text data ∧
      (∀ c ∈ X, allowed false c = true) ∧ (k = 0 ↔ ¬ (106 ≤ data.length ∨ data.length = 52 ∨ data.length = 53)) := by
    have hnul := C03_trailing_nul data out h
    rw [C03_encode_with_newlines] at h
    cases h
    have hcore : ∀ l : Str, (∀ c ∈ l, isDigit c = true ∨ c = 61) → core l = l := by
      intro l hl
      rw [core, List.filter_eq_self]
      intro c hc
      rcases hl c hc with h | rfl
      · simp [h]
      · decide
    have hX : ∀ c ∈ (if 54 ≤ data.length then (text data).take 72 ++ [10] ++ (text data).drop 72 else text data),
        isDigit c = true ∨ c = 61 ∨ c = 10 := by
      intro c hc
      have : c ∈ text data ∨ c = 10 := by
        split at hc
        · simp only [List.mem_append, List.mem_singleton] at hc
          rcases hc with (hc | hc) | hc
          · exact Or.inl (List.mem_of_mem_take hc)
          · exact Or.inr hc
          · exact Or.inl (List.mem_of_mem_drop hc)
        · exact Or.inl hc
      rcases this with h | h
      · rcases text_chars data c h with h | h
        · exact Or.inl h
        · exact Or.inr (Or.inl h)
      · exact Or.inr (Or.inr h)
    refine ⟨_, _, rfl, ?_, ?_, ?_⟩
    · split
      · rw [core_append, core_append, hcore _ (fun c hc => text_chars data c (List.mem_of_mem_take hc)),
          hcore _ (fun c hc => text_chars data c (List.mem_of_mem_drop hc)), show core [10] = [] by decide]
        simp
      · exact hcore _ (text_chars data)
    · intro c hc
      rcases hX c hc with h | rfl | rfl
      · simp [allowed, h]
      · decide
      · decide
    · rw [← hnul]
      simp only [List.mem_append, List.mem_replicate, and_true, not_or]
      constructor
      · intro hk
        refine ⟨fun h0 => ?_, by simp [hk]⟩
        rcases hX 0 h0 with h | h | h
        · exact absurd h (by decide)
        · exact absurd h (by decide)
        · exact absurd h (by decide)
      · rintro ⟨_, h2⟩; simpa using h2
  obtain ⟨X, k, rfl, hc, hall, hk⟩ := hshape
  have h7 : ∀ c ∈ X ++ List.replicate k 0, is7bit c = true := by
    intro c hc
    rcases List.mem_append.mp hc with h | h
    · exact allowed_7bit (hall c h)
    · rw [(List.mem_replicate.mp h).2]; decide
  obtain ⟨n, hn, hwf, huniq⟩ := C06_isBase64_exact false _ h7
  refine ⟨n, hn, fun h3 => ?_, fun h3 hlt => ?_, fun h3 hge => ?_⟩
  · obtain ⟨ds, h0, hds, e⟩ := text_padded h3
    have := huniq ds.length (Or.inr ⟨X, _, ds, rfl, ⟨hall, hds, hc.trans e⟩, rfl⟩)
    rw [this]
    have hl := congrArg List.length e
    rw [text_length, List.length_append, List.length_replicate] at hl
    omega
  · have hk0 : k = 0 := hk.mpr (by omega)
    subst hk0
    have sh := shape_of_text (ign := false) h3
    have := huniq (text data).length (Or.inl ⟨text data, ⟨by simpa using hall, sh.2.1, by simpa using hc⟩, rfl,
      by rw [text_length]; omega⟩)
    rw [this, text_length]; omega
  · have hk0 : k ≠ 0 := by rw [ne_eq, hk]; omega
    rcases Nat.eq_zero_or_pos n with h0 | hpos
    · exact h0
    · exfalso
      rcases hwf hpos with ⟨ds, hs, _⟩ | ⟨body, rest, ds, e, hs, _⟩
      · have := hs.1 0 (by simp [hk0])
        exact absurd this (by decide)
      · have h61 : (61 : UInt8) ∈ core body := by rw [hs.2.2]; simp; omega
        have h61 : (61 : UInt8) ∈ body := (List.mem_filter.mp h61).1
        have : (61 : UInt8) ∈ X ++ List.replicate k 0 := by rw [e]; simp [h61]
        rcases List.mem_append.mp this with h | h
        · have hm : (61 : UInt8) ∈ core X := List.mem_filter.mpr ⟨h, by decide⟩
          rw [hc] at hm
          exact absurd ((shape_of_text (ign := false) h3).2.1 61 hm) (by decide)
        · exact absurd (List.mem_replicate.mp h).2 (by decide)

/-- **C32.** What is read after data was set with base64 encoding: nothing for no data; an exception when
the number of bytes is no multiple of three; the bytes followed by a third as many indeterminate bytes for
up to 105 bytes; and the base64 text instead of the data from 108 bytes on. -/
theorem C32_base64_data_read (d : DataM) (bytes : Str)
    (henc : d.encoding = b!"base64") (hcomp : d.compression = b!"none") :
    (d.setData bytes).2 = .ok () ∧
    (bytes.length % 3 ≠ 0 → Throws (d.setData bytes).1.getData.2) ∧
    (bytes.length % 3 = 0 → bytes.length < 106 →
      (d.setData bytes).1.getData.2 = .ok (bytes.map some ++ List.replicate (bytes.length / 3) none)) ∧
    (bytes.length % 3 = 0 → 106 ≤ bytes.length →
      ∃ out, Base64.encode true bytes = .ok out ∧ (d.setData bytes).1.getData.2 = .ok (out.map some)) := by
  obtain ⟨out, hout, _⟩ := Base64.C02_encode_safe true bytes
  have hset : d.setData bytes = (({ d with data := some (bytes.map some) }).setContent out, .ok ()) := by
    simp only [DataM.setData, hcomp, henc]
    simp [hout]
  rw [hset]
  refine ⟨rfl, ?_⟩
  have hg := getData_base64 { d with data := some (bytes.map some) } out henc
  simp only [hg]
  clear hg
  obtain ⟨n, hn, h1, h2, h3⟩ := isBase64_encoded bytes out hout
  obtain ⟨r1, r2⟩ := Base64.C04_roundtrip_exact true false bytes out hout
  rw [hn]
  refine ⟨fun hm => ?_, fun hm hlt => ?_, fun hm hge => ⟨out, hout, ?_⟩⟩
  · have hpos : 0 < n := by rw [h1 hm]; omega
    have hfit := Base64.C07_decode_fits false out n hn hpos
    obtain ⟨msg, ht⟩ := r2 (by intro h; exact hm h.1)
    simp only [ne_eq]
    rw [if_pos (by omega), overlay, if_pos (by simpa using hfit), ht]
    exact ⟨msg, rfl⟩
  · have e := r1 ⟨hm, Or.inr (Or.inl hlt)⟩
    have hn' := h2 hm hlt
    simp only [e]
    by_cases h0 : bytes.length = 0
    · have : bytes = [] := List.length_eq_zero_iff.mp h0
      subst this
      have : out = [] := by
        rw [Base64.C03_encode_with_newlines] at hout
        have hh := Except.ok.inj hout
        rw [← hh]; decide
      subst this
      rw [if_neg (by simp [hn'])]
      simp
    · rw [if_pos (by omega), overlay, if_pos (by simp; omega)]
      simp only [List.drop_replicate]
      rw [show n - bytes.length = bytes.length / 3 by omega]
      rfl
  · rw [h3 hm hge]; rfl

/-- **C32, negative.** For no non-empty data are the bytes set with base64 encoding the bytes read. -/
theorem C32_base64_never_reads_back (d : DataM) (bytes : Str)
    (henc : d.encoding = b!"base64") (hcomp : d.compression = b!"none") (h0 : bytes ≠ []) :
    (d.setData bytes).1.getData.2 ≠ .ok (bytes.map some) := by
  obtain ⟨_, h1, h2, h3⟩ := C32_base64_data_read d bytes henc hcomp
  have hpos := List.length_pos_iff.mpr h0
  intro e
  by_cases hm : bytes.length % 3 = 0
  · by_cases hlt : bytes.length < 106
    · have := h2 hm hlt
      rw [e] at this
      have := congrArg List.length (Except.ok.inj this)
      simp at this; omega
    · obtain ⟨out, ho, hg⟩ := h3 hm (by omega)
      rw [e] at hg
      have hl := congrArg List.length (Except.ok.inj hg)
      obtain ⟨out', ho', hlen⟩ := Base64.C02_encode_safe true bytes
      rw [ho] at ho'; cases ho'
      simp [Base64.chars] at hl hlen
      omega
  · obtain ⟨m, hm⟩ := h1 hm
    rw [e] at hm; cases hm

example : (({ kind := .plain, encoding := b!"base64" } : DataM).setData b!"Man").1.getData.2 =
    .ok (b!"Man".map some ++ [none]) := by decide +kernel

/-! ## C81, C82 -/

/-- **C81, negative.** With a compression set, data that is set is dropped without an error: what is read afterwards does not depend
on the data. Without base64 encoding it is the text content of before, with base64 encoding it is nothing, and the text content is
gone as well. -/
theorem C81_compressed_data_dropped (d : DataM) (bytes : Str) (hcomp : d.compression ≠ b!"none") :
    (d.setData bytes).2 = .ok () ∧
    (d.encoding ≠ b!"base64" → (d.setData bytes).1.getData.2 = .ok (d.content.map some) ∧
      (d.setData bytes).1.getSize.2 = .ok d.content.length ∧ (d.setData bytes).1.content = d.content) ∧
    (d.encoding = b!"base64" → (d.setData bytes).1.getData.2 = .ok [] ∧ (d.setData bytes).1.getSize.2 = .ok 0 ∧
      (d.setData bytes).1.content = []) := by
  have he : Base64.encode true [] = .ok [] := by decide
  by_cases h64 : d.encoding = b!"base64"
  · have hset : d.setData bytes = ({ d with content := [], data := none }, .ok ()) := by
      simp [DataM.setData, hcomp, h64, he, DataM.setContent]
    have hi : Base64.isBase64 false [] = .ok 0 := by decide
    rw [hset]
    refine ⟨rfl, fun h => absurd h64 h, fun _ => ⟨?_, ?_, rfl⟩⟩
    · simp [DataM.getData, DataM.update, h64, hi]
    · simp [DataM.getSize, DataM.update, h64, hi]
  · have hset : d.setData bytes = ({ d with data := none }, .ok ()) := by
      simp only [DataM.setData, ne_eq, hcomp, not_false_eq_true, if_true, h64, if_false]
      split <;> rfl
    rw [hset]
    have hu : (({ d with data := none } : DataM)).update = ({ d with data := none }, .ok ()) := by
      simp only [DataM.update, h64, if_false]
      split <;> rfl
    refine ⟨rfl, fun _ => ⟨?_, ?_, rfl⟩, fun h => absurd h h64⟩
    · simp only [DataM.getData, hu]
    · simp only [DataM.getSize, hu]

example : (({ kind := .plain, content := b!"old", compression := b!"gzip" } : DataM).setData b!"new").1.getData.2 =
    .ok (b!"old".map some) := by decide

theorem isBase64_not_thrown (ign : Bool) (t : Str) (m : String) : Base64.isBase64 ign t ≠ .error (.thrown m) := by
  have hb : ∀ c, Base64.bitsAt c ≠ .error (.thrown m) := by
    intro c h
    rw [Base64.bitsAt] at h
    split at h
    · cases h
    · split at h <;> cases h
  have key : ∀ (t : Str) s, Base64.isLoop ign t s ≠ .error (.thrown m) := by
    intro t
    induction t with
    | nil => intro s h; rw [Base64.isLoop] at h; split at h <;> cases h
    | cons c t ih =>
      intro s h
      rw [Base64.isLoop] at h
      simp only [bind, Except.bind] at h
      split at h
      · next e he => cases h; exact hb c he
      · repeat' split at h
        all_goals first | exact ih _ h | cases h
  exact key t _

/-- **C82, negative.** When reading base64 data ends by an exception the next read does not: it returns a block whose size is the number of
base64 characters, beginning with what was decoded before the exception, the rest indeterminate. -/
theorem C82_second_read (d d' : DataM) (m : String) (hd : d.data = none) (henc : d.encoding = b!"base64")
    (h : d.getData = (d', .error (.thrown m))) :
    ∃ n block, Base64.isBase64 false d.content = .ok n ∧ d'.getData = (d', .ok block) ∧ block.length = n ∧ d'.getSize = (d', .ok n) ∧
      block = (Base64.decode false d.content).written.map some ++
        List.replicate (n - (Base64.decode false d.content).written.length) none := by
  simp only [DataM.getData, hd, DataM.update, henc] at h
  rw [if_neg (by decide), if_pos trivial] at h
  cases hi : Base64.isBase64 false d.content with
  | error f => 
    rw [hi] at h
    simp only at h
    have : f = .thrown m := by have := (Prod.mk.inj h).2; exact Except.error.inj this
    subst this
    exact absurd hi (isBase64_not_thrown _ _ _)
  | ok n =>
    rw [hi] at h
    simp only at h
    by_cases hn : n ≠ 0
    · rw [if_pos hn] at h
      have hfit := Base64.C07_decode_fits false d.content n hi (by omega)
      have ho : overlay (Base64.decode false d.content).written (List.replicate n none) =
          .ok ((Base64.decode false d.content).written.map some ++ List.replicate (n - (Base64.decode false d.content).written.length) none) := by
        rw [overlay, if_pos (by simpa using hfit), List.drop_replicate]
      rw [ho] at h
      simp only at h
      cases hoc : (Base64.decode false d.content).outcome with
      | ok v => rw [hoc] at h; simp [Except.map] at h
      | error f =>
        rw [hoc] at h
        simp only [Except.map] at h
        obtain ⟨h1, h2⟩ := Prod.mk.inj h
        subst h1
        refine ⟨n, _, rfl, getData_cached rfl, by simp; omega, ?_, rfl⟩
        rw [getSize_cached (b := (Base64.decode false d.content).written.map some ++ List.replicate (n - (Base64.decode false d.content).written.length) none) rfl]
        simp; omega
    · rw [if_neg hn] at h
      simp at h

example : let d : DataM := { kind := .plain, encoding := b!"base64", content := b!"TQ==" }
    d.getData.2 = .error (.thrown "invalid base64 string, unexpected end") ∧ d.getData.1.getData.2 = .ok [some 77, some 0] := by
  refine ⟨by decide +kernel, by decide +kernel⟩

example : let d : DataM := { kind := .plain, encoding := b!"base64", content := b!"AAAATQ==" }
    d.getData.2 = .error (.thrown "invalid base64 string, unexpected end") ∧
    d.getData.1.getData.2 = .ok [some 0, some 0, some 0, some 77, some 0, none] := by
  refine ⟨by decide +kernel, by decide +kernel⟩

/-! ## C33, C57: equality -/

theorem typeName_injective (a b : Kind) (h : a.typeName = b.typeName) : a = b := by
  rcases a with _ | _ | (_ | _ | _ | _) <;> rcases b with _ | _ | (_ | _ | _ | _) <;>
    first | rfl | exact absurd h (by decide)

/-- `d` holds exactly the bytes `x`: they were set raw, or they are its text and no encoding
applies to it. -/
def Holds (d : DataM) (x : Str) : Prop :=
  d.data = some (x.map some) ∨ (d.data = none ∧ d.encoding ≠ b!"base64" ∧ d.content = x)

theorem Holds.getData {d : DataM} {x : Str} (h : Holds d x) : d.getData = (d, .ok (x.map some)) := by
  rcases h with h | ⟨h1, h2, h3⟩
  · exact getData_cached h
  · cases d; simp only at h1 h2 h3
    subst h1 h3
    simp [DataM.getData, DataM.update, h2]

theorem Holds.getSize {d : DataM} {x : Str} (h : Holds d x) : d.getSize = (d, .ok x.length) := by
  rcases h with h | ⟨h1, h2, h3⟩
  · rw [getSize_cached h]; simp
  · cases d; simp only at h1 h2 h3
    subst h1 h3
    simp [DataM.getSize, DataM.update, h2]

theorem memEq_bytes : ∀ (x y : Str), x.length = y.length →
    memEq (x.map some) (y.map some) x.length = .ok (decide (x = y))
  | [], [], _ => rfl
  | a :: x, b :: y, h => by
    simp only [List.map_cons, List.length_cons, memEq]
    rw [memEq_bytes x y (by simpa using h)]
    by_cases hab : a = b
    · simp [hab]
    · simp [hab]
  | [], _ :: _, h => by simp at h
  | _ :: _, [], h => by simp at h

theorem isEqual_holds {a b : DataM} {x y : Str} (ha : Holds a x) (hb : Holds b y) :
    a.isEqual b = (a, b, .ok (decide (a.name = b.name ∧ a.kind = b.kind ∧ x = y))) := by
  rw [DataM.isEqual]
  by_cases h : a.name = b.name ∧ a.kind.typeName = b.kind.typeName
  · rw [if_pos h, ha.getSize]
    simp only [hb.getSize]
    have hk := typeName_injective _ _ h.2
    by_cases hl : x.length = y.length
    · rw [if_pos hl]
      simp only [hb.getData, ha.getData]
      rw [memEq_bytes x y hl]
      simp [h.1, hk]
    · rw [if_neg hl]
      have : x ≠ y := fun e => hl (by rw [e])
      simp [this]
  · rw [if_neg h]
    have : ¬ (a.name = b.name ∧ a.kind = b.kind ∧ x = y) := fun e => h ⟨e.1, by rw [e.2.1]⟩
    simp [this]

/-- **C33.** Two data measurements compare equal exactly when they have the same name, the same type and the
same bytes; comparing changes neither. -/
theorem C33_data_equal (files : Files) (a b : DataM) (x y : Str) (ha : Holds a x) (hb : Holds b y) :
    (Meas.data a).isEqual files (.data b) =
      (.data a, .data b, .ok (decide (a.name = b.name ∧ a.kind = b.kind ∧ x = y))) := by
  simp [Meas.isEqual, isEqual_holds ha hb]

example : Holds { kind := .plain, content := b!"abc" } b!"abc" := Or.inr ⟨rfl, by decide, rfl⟩

/-- The file name the operating system sees. -/
def cstrOf (s : Str) : Str := s.takeWhile (· ≠ 0)

/-- The bytes a comparison sees for a file measurement. -/
theorem load_holds (files : Files) (f : FileM) :
    (files (cstrOf f.fileName) = none → f.load files = { kind := .plain }) ∧
    (∀ bytes, files (cstrOf f.fileName) = some bytes →
      (f.load files).name = f.name ∧ Holds (f.load files) bytes ∧
      (f.load files).kind = ((createDataMeasurement f.type).getD { kind := .plain }).kind) := by
  refine ⟨fun h => ?_, fun bytes h => ?_⟩
  · simp only [FileM.load, cstrOf] at *; rw [h]
  · simp only [FileM.load, cstrOf] at *; rw [h]
    have : (createDataMeasurement f.type).getD { kind := .plain } =
        { kind := ((createDataMeasurement f.type).getD { kind := .plain }).kind } := by
      simp only [createDataMeasurement]
      repeat' split
      all_goals rfl
    refine ⟨rfl, ?_, ?_⟩
    · left
      rw [this]
      simp [DataM.setData]
    · simp only
      rw [this]
      simp [DataM.setData]

theorem create_kind (k : Kind) : createDataMeasurement k.typeName = some { kind := k } := by
  rcases k with _ | _ | (_ | _ | _ | _) <;> decide

theorem create_type {t : Str} {dm : DataM} (hc : createDataMeasurement t = some dm) : dm.kind.typeName = t := by
  simp only [createDataMeasurement] at hc
  repeat' split at hc
  all_goals first | cases hc | skip
  all_goals (next h => first | exact h.symm | simp_all [Kind.typeName])

/-- **C33.** A file measurement and a data measurement compare equal, in either order, exactly when
name and type agree and the file's bytes are the measurement's bytes; a file that cannot be opened equals only an
empty plain text when both names are empty. -/
theorem C33_file_data_equal (files : Files) (f : FileM) (d : DataM) (x : Str) (hd : Holds d x) :
    (Meas.file f).isEqual files (.data d) = (.file f, .data d, ((Meas.data d).isEqual files (.file f)).2.2) ∧
    (∀ bytes, files (cstrOf f.fileName) = some bytes → ((Meas.data d).isEqual files (.file f)).2.2 =
      .ok (decide (f.name = d.name ∧ f.type = d.kind.typeName ∧ bytes = x))) ∧
    (files (cstrOf f.fileName) = none → ((Meas.data d).isEqual files (.file f)).2.2 =
      .ok (decide (f.name = d.name ∧ f.type = d.kind.typeName ∧ d.name = [] ∧ d.kind = .plain ∧ x = []))) := by
  have hl := load_holds files f
  have hunch : (f.isEqualData files d).1 = d := by
    simp only [FileM.isEqualData]
    split
    · rfl
    · cases hfile : files (cstrOf f.fileName) with
      | none =>
        rw [hl.1 hfile]
        rw [isEqual_holds hd (y := []) (Or.inr ⟨rfl, by decide, rfl⟩)]
      | some bytes => rw [isEqual_holds hd (hl.2 bytes hfile).2.1]
  have hne : ∀ q : Prop, (f.name ≠ d.name ∨ f.type ≠ d.kind.typeName) →
      ¬ (f.name = d.name ∧ f.type = d.kind.typeName ∧ q) := by
    rintro q h ⟨h1, h2, _⟩
    rcases h with h | h
    · exact h h1
    · exact h h2
  refine ⟨by simp only [Meas.isEqual, hunch], fun bytes hfile => ?_, fun hfile => ?_⟩
  · simp only [Meas.isEqual, FileM.isEqualData]
    split
    · next h => simp [hne _ h]
    · next h =>
      simp only [ne_eq, not_or, Classical.not_not] at h
      obtain ⟨h1, h2, h3⟩ := hl.2 bytes hfile
      rw [isEqual_holds hd h2, h1, h3, h.2, create_kind]
      simp [h.1, eq_comm]
  · simp only [Meas.isEqual, FileM.isEqualData]
    split
    · next h => simp [hne _ h]
    · next h =>
      simp only [ne_eq, not_or, Classical.not_not] at h
      rw [hl.1 hfile, isEqual_holds hd (y := []) (Or.inr ⟨rfl, by decide, rfl⟩)]
      simp [h.1, h.2]

/-- **C33.** Two file measurements with a known type compare equal exactly when names, types and the
bytes of the two (readable) files agree; with a type that is no data type, such as an image, they never
compare equal, not even a file with itself. -/
theorem C33_file_file_equal (files : Files) (f g : FileM) (x y : Str)
    (hf : files (cstrOf f.fileName) = some x) (hg : files (cstrOf g.fileName) = some y) :
    (Meas.file f).isEqual files (.file g) = (.file f, .file g,
      .ok (decide (f.name = g.name ∧ f.type = g.type ∧ (createDataMeasurement f.type).isSome = true ∧ x = y))) := by
  simp only [Meas.isEqual]
  by_cases h : f.name = g.name ∧ f.type = g.type
  · rw [if_neg (by simp [h.1, h.2])]
    obtain ⟨h1, h2, h3⟩ := (load_holds files f).2 x hf
    have := (C33_file_data_equal files g (f.load files) x h2).2.1 y hg
    simp only [Meas.isEqual] at this
    rw [this, h1, h3]
    cases hc : createDataMeasurement f.type with
    | none =>
      have hne : g.type ≠ Kind.plain.typeName := by
        intro e
        rw [h.2, e, create_kind] at hc; cases hc
      simp [hne]
    | some dm =>
      have ht := create_type hc
      simp only [Option.getD_some, h.1, ht, h.2, Option.isSome_some, true_and, eq_comm]
  · have h' : f.name ≠ g.name ∨ f.type ≠ g.type := by
      by_cases h1 : f.name = g.name
      · exact Or.inr fun h2 => h ⟨h1, h2⟩
      · exact Or.inl h1
    rw [if_pos h']
    simp only [← and_assoc, h, false_and, decide_false]

example : createDataMeasurement b!"image/png" = none := by decide

/-- **C33, negative.** An image file measurement is not equal to itself under `operator==`. -/
theorem C33_image_not_self_equal (files : Files) (f : FileM) (x : Str) (hf : files (cstrOf f.fileName) = some x)
    (ht : f.type = b!"image/png") : ((Meas.file f).isEqual files (.file f)).2.2 = .ok false := by
  rw [C33_file_file_equal files f f x x hf hf, ht]
  have : (createDataMeasurement b!"image/png").isSome = false := by decide
  simp [this]

/-- **C57, negative.** Comparing two base64 measurements with the same well-formed unpadded non-empty content
reads indeterminate memory. -/
theorem C57_base64_compare_ub (a b : DataM) (data : Str) (hname : a.name = b.name) (hkind : a.kind = b.kind)
    (hea : a.encoding = b!"base64") (heb : b.encoding = b!"base64")
    (hca : a.compression = b!"none") (hcb : b.compression = b!"none")
    (hm : data.length % 3 = 0) (h0 : data ≠ []) (hlt : data.length < 106) :
    IsUB ((a.setData data).1.isEqual (b.setData data).1).2.2 := by
  have key : ∀ d : DataM, d.encoding = b!"base64" → d.compression = b!"none" →
      ∃ d', (d.setData data).1.getSize = (d', .ok (data.length / 3 * 4)) ∧
        d'.getData = (d', .ok (data.map some ++ List.replicate (data.length / 3) none)) ∧
        (d.setData data).1.name = d.name ∧ (d.setData data).1.kind = d.kind := by
    intro d henc hcomp
    have hg := (C32_base64_data_read d data henc hcomp).2.2.1 hm hlt
    have hnone : (d.setData data).1.data = none ∧ (d.setData data).1.name = d.name ∧ (d.setData data).1.kind = d.kind := by
      obtain ⟨out, hout, _⟩ := Base64.C02_encode_safe true data
      simp only [DataM.setData, hcomp, henc]
      simp [hout, DataM.setContent]
    generalize (d.setData data).1 = e at *
    simp only [DataM.getData, hnone.1] at hg
    simp only [DataM.getSize, hnone.1]
    cases hu : e.update with
    | mk e' r =>
      rw [hu] at hg
      cases r with
      | error f => cases hg
      | ok u =>
        simp only at hg ⊢
        cases hd : e'.data with
        | none =>
          rw [hd] at hg
          have hg := Except.ok.inj hg
          exfalso
          have hlen := List.length_pos_iff.mpr h0
          have hcount : (none : Cell) ∈ e'.content.map some := by
            rw [hg]; simp; omega
          simp at hcount
        | some block =>
          rw [hd] at hg
          have hg := Except.ok.inj hg
          subst hg
          refine ⟨e', ?_, getData_cached hd, hnone.2⟩
          simp; omega
  obtain ⟨a', ha1, ha2, ha3, ha4⟩ := key a hea hca
  obtain ⟨b', hb1, hb2, hb3, hb4⟩ := key b heb hcb
  have hlen := List.length_pos_iff.mpr h0
  simp only [DataM.isEqual]
  rw [if_pos (by rw [ha3, hb3, ha4, hb4, hname, hkind]; exact ⟨rfl, rfl⟩)]
  simp only [ha1, hb1, ha2, hb2, if_true]
  have : ∀ (x : Str) (k n : Nat), x.length < n → 0 < k →
      IsUB (memEq (x.map some ++ List.replicate k none) (x.map some ++ List.replicate k none) n) := by
    intro x
    induction x with
    | nil =>
      intro k n hn hk
      obtain ⟨k, rfl⟩ : ∃ j, k = j + 1 := ⟨k - 1, by omega⟩
      obtain ⟨n, rfl⟩ : ∃ j, n = j + 1 := ⟨n - 1, by simp at hn; omega⟩
      exact ⟨_, rfl⟩
    | cons c x ih =>
      intro k n hn hk
      obtain ⟨n, rfl⟩ : ∃ j, n = j + 1 := ⟨n - 1, by simp at hn; omega⟩
      simp only [List.map_cons, List.cons_append, memEq, if_true]
      exact ih k n (by simp at hn; omega) hk
  exact this data _ _ (by omega) (by omega)

/-! ## C58: the factory -/

/-- **C58.** The factory creates an empty measurement whose type is the requested one, exactly for the six
known types, and nothing for every other string. -/
theorem C58_factory (t : Str) :
    (∀ m, createDataMeasurement t = some m → m.kind.typeName = t ∧ m = { kind := m.kind }) ∧
    (createDataMeasurement t = none ↔ ∀ k : Kind, k.typeName ≠ t) := by
  constructor
  · intro m h
    simp only [createDataMeasurement] at h
    repeat' split at h
    all_goals first | (cases h; simp [Kind.typeName, *]) | cases h
  · constructor
    · rintro h k rfl
      rw [create_kind] at h; cases h
    · intro h
      cases hc : createDataMeasurement t with
      | none => rfl
      | some m =>
        exfalso
        simp only [createDataMeasurement] at hc
        repeat' split at hc
        · next e => exact h .plain e.symm
        · next e => exact h .string e.symm
        · next e => exact h (.num .integer) e.symm
        · next e => exact h (.num .float) e.symm
        · next e => exact h (.num .double) e.symm
        · next e => exact h (.num .boolean) e.symm
        · cases hc

end Verif.Measurement
