import Verif.Base64.ScanLemmas

/-!
# Properties of `Base64` (C01 – C11)

`encode addNewLines data`, `isBase64 ignoreInvalids text` and `decode ignoreInvalids text` are the
models of the three public functions; `Spec.text data` is the standard base64 text of `data`.
-/

set_option linter.unusedSimpArgs false

namespace Verif.Base64

open Spec

/-- Number of base64 characters for `n` bytes: four for every three bytes begun. -/
abbrev chars (n : Nat) : Nat := 4 * ((n + 2) / 3)

/-! ## C01 -/

/-- **C01.** With new lines off the result is exactly the standard base64 text. -/
theorem C01_encode_is_standard_base64 (data : Str) : encode false data = .ok (text data) := by
  rw [encode_eq]; simp [emitted_off, text_length, encodeSize]

example : text b!"Man" = b!"TWFu" ∧ text b!"Ma" = b!"TWE=" ∧ text b!"M" = b!"TQ==" ∧
    text b!"light w" = b!"bGlnaHQgdw==" := by decide

/-! ## C02 -/

/-- **C02.** Encoding never performs an out-of-range write (or any other fault) and returns a
string of the documented size. -/
theorem C02_encode_safe (nl : Bool) (data : Str) :
    ∃ out, encode nl data = .ok out ∧
      out.length = chars data.length + (if nl then chars data.length / 72 else 0) := by
  refine ⟨_, encode_eq nl data, ?_⟩
  have h := emitted_length_le nl data
  simp only [List.length_append, List.length_replicate]
  have e : encodeSize nl data.length
      = chars data.length + (if nl then chars data.length / 72 else 0) := by
    cases nl <;> simp [encodeSize, chars, Nat.mul_comm]
  omega

/-! ## C03 -/

/-- **C03.** With new lines on: the standard text, with one line break after its first 72
characters if at least 54 bytes were encoded, and then NUL bytes. -/
theorem C03_encode_with_newlines (data : Str) :
    encode true data = .ok
      ((if 54 ≤ data.length then (text data).take 72 ++ [10] ++ (text data).drop 72 else text data) ++
       List.replicate (chars data.length / 72 - (if 54 ≤ data.length then 1 else 0)) 0) := by
  rw [encode_eq, emitted_on_zero]
  split
  · next h =>
    simp only [List.append_assoc, List.singleton_append, List.length_append, List.length_take,
      List.length_cons, List.length_drop, text_length, encodeSize, chars]
    congr 4
    rw [Nat.mul_comm 4 ((data.length+2)/3)]
    simp
    omega
  · simp [text_length, encodeSize, chars, Nat.mul_comm]

/-- Standard base64 text consists of digits and padding only. -/
theorem text_chars (data : Str) : ∀ c ∈ text data, isDigit c = true ∨ c = 61 := by
  have hd : ∀ v < 64, isDigit (digit v) = true := by decide +kernel
  have h64 : ∀ b : UInt8, b.toNat < 256 := fun b => b.toNat_lt
  induction data using three_induction with
  | h0 => simp [text_nil]
  | h1 a =>
    have := h64 a
    simp [text_one, hd (a.toNat / 4) (by omega), hd (16 * (a.toNat % 4)) (by omega)]
  | h2 a b =>
    have := h64 a; have := h64 b
    simp [text_two, hd (a.toNat / 4) (by omega), hd (16 * (a.toNat % 4) + b.toNat / 16) (by omega),
      hd (4 * (b.toNat % 16)) (by omega)]
  | h3 a b c r ih =>
    have := h64 a; have := h64 b; have := h64 c
    simp only [text_three, List.mem_cons]
    rintro x (rfl | rfl | rfl | rfl | hx)
    · exact Or.inl (hd _ (by omega))
    · exact Or.inl (hd _ (by omega))
    · exact Or.inl (hd _ (by omega))
    · exact Or.inl (hd _ (by omega))
    · exact ih x hx

/-- **C03, recovery.** Dropping line breaks and NULs always gives the standard text back. -/
theorem C03_payload (data out : Str) (h : encode true data = .ok out) :
    out.filter (fun c => c != 10 && c != 0) = text data := by
  rw [C03_encode_with_newlines] at h
  cases h
  have key : ∀ l : Str, (∀ c ∈ l, isDigit c = true ∨ c = 61) →
      l.filter (fun c => c != 10 && c != 0) = l := by
    intro l hl
    rw [List.filter_eq_self]
    intro c hc
    rcases hl c hc with h | rfl
    · exact forall_byte (P := fun c => isDigit c = true → (c != 10 && c != 0) = true)
        (by decide +kernel) c h
    · decide
  rw [List.filter_append]
  have hz : ∀ k, (List.replicate k (0 : UInt8)).filter (fun c => c != 10 && c != 0) = [] := by
    intro k; simp
  rw [hz, List.append_nil]
  split
  · rw [List.filter_append, List.filter_append, key _ (fun c hc => text_chars data c (List.mem_of_mem_take hc)),
      key _ (fun c hc => text_chars data c (List.mem_of_mem_drop hc))]
    simp
  · exact key _ (text_chars data)

/-- The lines of an encoding: pieces between line breaks. -/
def linesOf : Str → List Str
  | [] => [[]]
  | c :: r => if c = 10 then [] :: linesOf r else
    match linesOf r with
    | l :: ls => (c :: l) :: ls
    | [] => [[c]]

/-- **C03, negative.** The documented limit of 72 characters per line is violated. -/
theorem C03_line_limit_violated :
    ∃ data out, encode true data = .ok out ∧ ∃ l ∈ linesOf out, 72 < l.length := by
  refine ⟨List.replicate 111 65, _, C03_encode_with_newlines _, ?_⟩
  decide +kernel

/-- **C03, negative.** The result can end in a line break, against the documentation. -/
theorem C03_trailing_newline :
    ∃ data out, encode true data = .ok out ∧ out.getLast? = some 10 := by
  refine ⟨List.replicate 54 65, _, C03_encode_with_newlines _, ?_⟩
  decide +kernel

/-- **C03, negative.** From 106 bytes on (and for 52 and 53 bytes) the result ends in a NUL byte. -/
theorem C03_trailing_nul (data out : Str) (h : encode true data = .ok out) :
    0 ∈ out ↔ 106 ≤ data.length ∨ data.length = 52 ∨ data.length = 53 := by
  rw [C03_encode_with_newlines] at h
  cases h
  have ht : (0 : UInt8) ∉ text data := by
    intro h0
    rcases text_chars data 0 h0 with h | h
    · exact absurd h (by decide)
    · exact absurd h (by decide)
  simp only [List.mem_append, List.mem_replicate, and_true, ne_eq]
  have h1 : (0 : UInt8) ∉ (if 54 ≤ data.length then (text data).take 72 ++ [10] ++ (text data).drop 72
      else text data) := by
    split
    · simp only [List.mem_append, not_or]
      exact ⟨⟨fun h => ht (List.mem_of_mem_take h), by decide⟩, fun h => ht (List.mem_of_mem_drop h)⟩
    · exact ht
  simp only [h1, false_or, chars]
  split <;> omega

/-! ## Decoding -/

theorem shape_of_text {ign : Bool} {data : Str} (h : data.length % 3 = 0) :
    Shape ign (text data) (text data) 0 := by
  have hd : ∀ c ∈ text data, isDigit c = true := by
    have hd : ∀ v < 64, isDigit (digit v) = true := by decide +kernel
    induction data using three_induction with
    | h0 => simp [text_nil]
    | h1 a => simp at h
    | h2 a b => simp at h
    | h3 a b c r ih =>
      have := a.toNat_lt; have := b.toNat_lt; have := c.toNat_lt
      simp only [text_three, List.mem_cons]
      rintro x (rfl | rfl | rfl | rfl | hx)
      · exact hd _ (by omega)
      · exact hd _ (by omega)
      · exact hd _ (by omega)
      · exact hd _ (by omega)
      · exact ih (by simpa [Nat.add_assoc] using h) x hx
  refine ⟨fun c hc => by simp [allowed, hd c hc], hd, ?_⟩
  simp only [core, List.replicate_zero, List.append_nil, List.filter_eq_self]
  intro c hc
  simp [hd c hc]

theorem digit_inj : ∀ v < 64, ∀ w < 64, digit v = digit w → v = w := by decide +kernel

/-- The standard base64 text determines the data. -/
theorem text_injective (d e : Str) (h : text d = text e) : d = e := by
  have hne : ∀ v < 64, digit v ≠ 61 := by decide +kernel
  have hx : ∀ b : UInt8, b.toNat < 256 := fun b => b.toNat_lt
  have byte_ext : ∀ a a' : UInt8, a.toNat = a'.toNat → a = a' := fun a a' h => UInt8.toNat_inj.mp h
  induction d using three_induction generalizing e with
  | h0 =>
    match e with
    | [] => rfl
    | [a] => simp [text_nil, text_one] at h
    | [a, b] => simp [text_nil, text_two] at h
    | a :: b :: c :: r => simp [text_nil, text_three] at h
  | h1 a =>
    have := hx a
    match e with
    | [] => simp [text_nil, text_one] at h
    | [a'] =>
      have := hx a'
      simp only [text_one, List.cons.injEq, and_true] at h
      have h1 := digit_inj _ (by omega) _ (by omega) h.1
      have h2 := digit_inj _ (by omega) _ (by omega) h.2
      rw [byte_ext a a' (by omega)]
    | [a', b'] =>
      simp only [text_one, text_two, List.cons.injEq, and_true] at h
      exact absurd h.2.2.symm (hne _ (by omega))
    | a' :: b' :: c' :: r =>
      simp only [text_one, text_three, List.cons.injEq] at h
      have := hx c'
      exact absurd h.2.2.2.1.symm (hne _ (by omega))
  | h2 a b =>
    have := hx a; have := hx b
    match e with
    | [] => simp [text_nil, text_two] at h
    | [a'] =>
      simp only [text_one, text_two, List.cons.injEq, and_true] at h
      exact absurd h.2.2 (hne _ (by omega))
    | [a', b'] =>
      have := hx a'; have := hx b'
      simp only [text_two, List.cons.injEq, and_true] at h
      have h1 := digit_inj _ (by omega) _ (by omega) h.1
      have h2 := digit_inj _ (by omega) _ (by omega) h.2.1
      have h3 := digit_inj _ (by omega) _ (by omega) h.2.2
      rw [byte_ext a a' (by omega), byte_ext b b' (by omega)]
    | a' :: b' :: c' :: r =>
      simp only [text_two, text_three, List.cons.injEq] at h
      have := hx c'
      exact absurd h.2.2.2.1.symm (hne _ (by omega))
  | h3 a b c r ih =>
    have := hx a; have := hx b; have := hx c
    match e with
    | [] => simp [text_nil, text_three] at h
    | [a'] =>
      simp only [text_one, text_three, List.cons.injEq] at h
      exact absurd h.2.2.2.1 (hne _ (by omega))
    | [a', b'] =>
      simp only [text_two, text_three, List.cons.injEq] at h
      exact absurd h.2.2.2.1 (hne _ (by omega))
    | a' :: b' :: c' :: r' =>
      have := hx a'; have := hx b'; have := hx c'
      simp only [text_three, List.cons.injEq] at h
      have h1 := digit_inj _ (by omega) _ (by omega) h.1
      have h2 := digit_inj _ (by omega) _ (by omega) h.2.1
      have h3 := digit_inj _ (by omega) _ (by omega) h.2.2.1
      have h4 := digit_inj _ (by omega) _ (by omega) h.2.2.2.1
      rw [byte_ext a a' (by omega), byte_ext b b' (by omega), byte_ext c c' (by omega),
        ih r' h.2.2.2.2]

/-! ## C05 -/

/-- **C05.** On 7-bit text `Decode` returns normally exactly for texts without padding whose
characters are all allowed and whose number of digits is a multiple of four; the bytes it
writes are then those whose standard encoding is the text's digits, and their number is returned.
Every other 7-bit text makes it throw. -/
theorem C05_decode_exact (ign : Bool) (t : Str) (h7 : ∀ c ∈ t, is7bit c = true) :
    (((∀ c ∈ t, isDigit c = true ∨ isSpace c = true ∨ (ign = true ∧ isJunk c = true)) ∧
        (t.filter isDigit).length % 4 = 0) ∧
      ∃ data, decode ign t = ⟨data, .ok data.length⟩ ∧ text data = t.filter isDigit) ∨
    (¬ ((∀ c ∈ t, isDigit c = true ∨ isSpace c = true ∨ (ign = true ∧ isJunk c = true)) ∧
        (t.filter isDigit).length % 4 = 0) ∧ Throws (decode ign t).outcome) := by
  obtain ⟨pre, ds, p, hs, hp, hend⟩ := scan_text ign t
  rcases hend with rfl | ⟨c, r, rfl, hst⟩
  · obtain ⟨s', e, ha⟩ := decode_shape ign hs hp []
    simp only [List.append_nil] at e
    obtain ⟨hw, ho⟩ := decLoop_nil ign ha
    by_cases h0 : p = 0
    · subst h0
      have hnp : ∀ c ∈ t, isPad c = false := by
        intro c hc
        by_cases hpad : isPad c = true
        · have : c ∈ core t := by simp [core, hc, hpad]
          rw [hs.2.2] at this
          simp only [List.replicate_zero, List.append_nil] at this
          have := hs.2.1 c this
          rw [(pad_not c hpad).1] at this; cases this
        · simpa using hpad
      have hf : t.filter isDigit = ds := by
        have := hs.2.2
        simp only [List.replicate_zero, List.append_nil] at this
        rw [← this, core]
        apply List.filter_congr
        intro c hc
        simp [hnp c hc]
      have hall : ∀ c ∈ t, isDigit c = true ∨ isSpace c = true ∨ (ign = true ∧ isJunk c = true) := by
        intro c hc
        have := hs.1 c hc
        simp only [allowed, hnp c hc, Bool.or_false, Bool.or_eq_true, Bool.and_eq_true] at this
        rcases this with (h | h) | h
        · exact Or.inl h
        · exact Or.inr (Or.inl h)
        · exact Or.inr (Or.inr h.1)
      by_cases h4 : ds.length % 4 = 0
      · left
        rw [if_pos ⟨rfl, h4⟩] at ho
        refine ⟨⟨hall, by rw [hf]; exact h4⟩, s'.output, ?_, ?_⟩
        · rw [e, ← ho.1, ← hw]
        · rw [ho.2, hf]
      · right
        rw [if_neg (by simp [h4])] at ho
        exact ⟨fun h => h4 (by rw [← hf]; exact h.2), by rw [e]; exact ho⟩
    · right
      rw [if_neg (by simp [h0])] at ho
      refine ⟨?_, by rw [e]; exact ho⟩
      rintro ⟨hall, _⟩
      have : (61 : UInt8) ∈ core t := by rw [hs.2.2]; simp [h0]
      have hm : (61 : UInt8) ∈ t := (List.mem_filter.mp this).1
      have := hall 61 hm
      revert this; cases ign <;> decide
  · obtain ⟨s', e, ha⟩ := decode_shape ign hs hp (c :: r)
    obtain ⟨ho, _⟩ := decLoop_stop ign ds p c r ha hp hst
    have hc7 := h7 c (by simp)
    rw [if_neg (by simp [hc7])] at ho
    right
    refine ⟨?_, by rw [e]; exact ho⟩
    rintro ⟨hall, _⟩
    rcases hst with h | ⟨_, hj, hi⟩ | ⟨hd, h0⟩ | ⟨rfl, _⟩
    · rw [hc7] at h; cases h
    · have := hall c (by simp)
      simp only [isJunk, Bool.and_eq_true, Bool.not_eq_true'] at hj
      simp [hj, hi] at this
    · have : (61 : UInt8) ∈ core pre := by
        rw [hs.2.2]; simp; omega
      have hm : (61 : UInt8) ∈ pre := (List.mem_filter.mp this).1
      have := hall 61 (by simp [hm])
      revert this; cases ign <;> decide
    · have := hall 61 (by simp)
      revert this; cases ign <;> decide

example : decode false b!"TW\nFu" = ⟨b!"Man", .ok 3⟩ := by decide
example : Throws (decode false b!"TWE=").outcome := ⟨_, rfl⟩
example : ∀ c ∈ b!"TW\nFu", is7bit c = true := by decide

/-! ## C04 -/

theorem filter_digit_text {data : Str} (h : data.length % 3 = 0) :
    (text data).filter isDigit = text data := by
  rw [List.filter_eq_self]; exact (shape_of_text (ign := false) h).2.1

theorem pad_mem_text {data : Str} (h : data.length % 3 ≠ 0) : (61 : UInt8) ∈ text data := by
  induction data using three_induction with
  | h0 => simp at h
  | h1 a => simp [text_one]
  | h2 a b => simp [text_two]
  | h3 a b c r ih =>
    simp only [text_three, List.mem_cons]
    right; right; right; right
    exact ih (by simpa [Nat.add_assoc] using h)

/-- **C04, exact form.** Decoding an encoding gives the data back, with its length, exactly when
the length is a multiple of 3 and (new lines off, or fewer than 106 bytes, or
invalid characters ignored); in all other cases `Decode` throws. -/
theorem C04_roundtrip_exact (nl ign : Bool) (data out : Str) (h : encode nl data = .ok out) :
    (data.length % 3 = 0 ∧ (nl = false ∨ data.length < 106 ∨ ign = true) →
      decode ign out = ⟨data, .ok data.length⟩) ∧
    (¬ (data.length % 3 = 0 ∧ (nl = false ∨ data.length < 106 ∨ ign = true)) →
      Throws (decode ign out).outcome) := by
  -- shape of the encoding
  have hshape : (∀ c ∈ out, isDigit c = true ∨ c = 61 ∨ c = 10 ∨ c = 0) ∧
      ((61 : UInt8) ∈ out ↔ 61 ∈ text data) ∧ ((0 : UInt8) ∈ out ↔ nl = true ∧
        (106 ≤ data.length ∨ data.length = 52 ∨ data.length = 53)) ∧
      out.filter isDigit = (text data).filter isDigit := by
    cases nl with
    | false =>
      rw [C01_encode_is_standard_base64] at h
      cases h
      refine ⟨fun c hc => ?_, Iff.rfl, ?_, rfl⟩
      · rcases text_chars data c hc with h | h
        · exact Or.inl h
        · exact Or.inr (Or.inl h)
      · constructor
        · intro h0
          rcases text_chars data 0 h0 with h | h
          · exact absurd h (by decide)
          · exact absurd h (by decide)
        · rintro ⟨h, _⟩; cases h
    | true =>
      have hnul := C03_trailing_nul data out h
      have hpay := C03_payload data out h
      have hne : ∀ c : UInt8, isDigit c = true → (c != 10 && c != 0) = true :=
        forall_byte (P := fun c => isDigit c = true → (c != 10 && c != 0) = true) (by decide +kernel)
      refine ⟨fun c hc => ?_, ?_, by simpa using hnul, ?_⟩
      · by_cases h10 : c = 10
        · simp [h10]
        · by_cases h0 : c = 0
          · simp [h0]
          · have : c ∈ out.filter (fun c => c != 10 && c != 0) := by simp [hc, h10, h0]
            rw [hpay] at this
            rcases text_chars data c this with h | h
            · exact Or.inl h
            · exact Or.inr (Or.inl h)
      · rw [← hpay]; simp
      · rw [← hpay, List.filter_filter]
        apply List.filter_congr
        intro c _
        by_cases hd : isDigit c = true
        · have := hne c hd; simp [hd] at this ⊢; exact this
        · simp [hd]
  obtain ⟨hch, h61, h0, hf⟩ := hshape
  have h7 : ∀ c ∈ out, is7bit c = true := by
    intro c hc
    rcases hch c hc with h | rfl | rfl | rfl
    · exact digit_7bit c h
    all_goals decide
  have hC := C05_decode_exact ign out h7
  constructor
  · rintro ⟨h3, hcase⟩
    have no61 : (61 : UInt8) ∉ out := by
      rw [h61]; intro hm
      have := (shape_of_text (ign := false) h3).2.1 61 hm
      revert this; decide
    have hall : ∀ c ∈ out, isDigit c = true ∨ isSpace c = true ∨ (ign = true ∧ isJunk c = true) := by
      intro c hc
      rcases hch c hc with h | rfl | rfl | rfl
      · exact Or.inl h
      · exact absurd hc no61
      · exact Or.inr (Or.inl (by decide))
      · have := h0.mp hc
        have hi : ign = true := by
          rcases hcase with h | h | h
          · rw [h] at this; cases this.1
          · omega
          · exact h
        exact Or.inr (Or.inr ⟨hi, by decide⟩)
    have hlen : (out.filter isDigit).length % 4 = 0 := by
      rw [hf, filter_digit_text h3, text_length]; omega
    rcases hC with ⟨_, d, e, ht⟩ | ⟨hn, _⟩
    · rw [hf, filter_digit_text h3] at ht
      rw [text_injective d data ht] at e
      exact e
    · exact absurd ⟨hall, hlen⟩ hn
  · intro hn
    rcases hC with ⟨⟨hall, _⟩, _⟩ | ⟨_, ht⟩
    · exfalso
      apply hn
      have h3 : data.length % 3 = 0 := by
        by_cases h3 : data.length % 3 = 0
        · exact h3
        · have := hall 61 (h61.mpr (pad_mem_text h3))
          exact absurd this (by cases ign <;> decide)
      refine ⟨h3, ?_⟩
      by_cases hnl : nl = false
      · exact Or.inl hnl
      · by_cases hl : data.length < 106
        · exact Or.inr (Or.inl hl)
        · have := hall 0 (h0.mpr ⟨by simpa using hnl, by omega⟩)
          right; right
          revert this; cases ign <;> decide
    · exact ht

/-- **C04, negative.** The plain round trip property fails: one byte cannot be decoded back. -/
theorem C04_roundtrip_fails : ¬ ∀ (nl : Bool) (data out : Str), encode nl data = .ok out →
    decode false out = ⟨data, .ok data.length⟩ := by
  intro h
  have := h false [65] _ (C01_encode_is_standard_base64 _)
  revert this
  decide

example : (List.replicate 54 (65 : UInt8)).length % 3 = 0 ∧ (List.replicate 54 (65 : UInt8)).length < 106 := by
  decide

/-! ## C06 -/

/-- **C06.** On 7-bit text `IsBase64` always returns; it returns `n > 0` exactly when the text
is well formed and carries `n` digits, and 0 when it is not well formed or carries none. -/
theorem C06_isBase64_exact (ign : Bool) (t : Str) (h7 : ∀ c ∈ t, is7bit c = true) :
    ∃ n, isBase64 ign t = .ok n ∧ (0 < n → WellFormed ign t n) ∧
      ∀ m, WellFormed ign t m → n = m := by
  have closed : ∀ body rest ds, t = body ++ rest → Shape ign body ds (4 - ds.length % 4) →
      isBase64 ign t = .ok ds.length := by
    rintro body rest ds rfl hs
    obtain ⟨p, hp⟩ : ∃ p, 4 - ds.length % 4 = p + 1 := ⟨4 - ds.length % 4 - 1, by omega⟩
    rw [isBase64, isLoop_core ign body rest _ hs.1, hs.2.2, List.append_assoc]
    have := isLoop_digits ign ds (List.replicate (4 - ds.length % 4) 61 ++ rest) 0 hs.2.1
    simp only [Nat.zero_mod, Nat.zero_add] at this
    rw [this, hp, List.replicate_succ', List.append_assoc,
      isLoop_pads _ _ _ _ _ _ (by omega), List.singleton_append, isLoop_pad, if_pos (by simp only; omega)]
  have unpadded : ∀ ds, Shape ign t ds 0 → ds.length % 4 = 0 → isBase64 ign t = .ok ds.length := by
    intro ds hs h4
    have := isLoop_shape ign hs (by omega) []
    simp only [List.append_nil] at this
    rw [isBase64, this]; simp [isLoop, h4]
  have uniq : ∀ m, WellFormed ign t m → isBase64 ign t = .ok m := by
    rintro m (⟨ds, hs, rfl, h4⟩ | ⟨body, rest, ds, ht, hs, rfl⟩)
    · exact unpadded ds hs h4
    · exact closed body rest ds ht hs
  obtain ⟨pre, ds, p, hs, hp, hend⟩ := scan_text ign t
  rcases hend with rfl | ⟨c, r, rfl, hst⟩
  · have e := isLoop_shape ign hs hp []
    simp only [List.append_nil] at e
    by_cases h0 : ds.length % 4 + p = 0
    · have hp0 : p = 0 := by omega
      subst hp0
      have hw : WellFormed ign t ds.length := Or.inl ⟨ds, hs, rfl, by omega⟩
      refine ⟨ds.length, uniq _ hw, fun _ => hw, fun m hm => ?_⟩
      have := uniq m hm
      rw [uniq _ hw] at this; exact Except.ok.inj this
    · have hr : isBase64 ign t = .ok 0 := by rw [isBase64, e]; simp [isLoop]; omega
      refine ⟨0, hr, by simp, fun m hm => ?_⟩
      have := uniq m hm
      rw [hr] at this; exact Except.ok.inj this
  · have e := isLoop_shape ign hs hp (c :: r)
    rw [isLoop_stop ign ds p c r hp hst] at e
    have hc7 := h7 c (by simp)
    by_cases h61 : c = 61
    · have hcl : p + 1 = 4 - ds.length % 4 := by
        rcases hst with h | ⟨_, hj, _⟩ | ⟨hd, _⟩ | ⟨_, h⟩
        · rw [hc7] at h; cases h
        · subst h61; exact absurd hj (by decide)
        · subst h61; exact absurd hd (by decide)
        · exact h
      have hw : WellFormed ign (pre ++ c :: r) ds.length := by
        refine Or.inr ⟨pre ++ [61], r, ds, by simp [h61], ⟨?_, hs.2.1, ?_⟩, rfl⟩
        · intro x hx
          simp only [List.mem_append, List.mem_singleton] at hx
          rcases hx with hx | rfl
          · exact hs.1 x hx
          · simp [allowed, isPad]
        · rw [core_append, hs.2.2, ← hcl, List.replicate_succ', List.append_assoc]; rfl
      refine ⟨ds.length, uniq _ hw, fun _ => hw, fun m hm => ?_⟩
      have := uniq m hm
      rw [uniq _ hw] at this; exact Except.ok.inj this
    · have hr : isBase64 ign (pre ++ c :: r) = .ok 0 := by
        rw [isBase64, e]; simp [hc7, h61]
      refine ⟨0, hr, by simp, fun m hm => ?_⟩
      have := uniq m hm
      rw [hr] at this; exact Except.ok.inj this

example : WellFormed false b!"TWE=" 3 := by
  refine Or.inr ⟨b!"TWE=", [], b!"TWE", rfl, ⟨by decide, by decide, by decide⟩, rfl⟩

/-- **C06, negative.** The documentation says the result is the number of bytes `Decode` will produce.
For no text that `Decode` accepts with at least one byte is that so. -/
theorem C06_not_number_of_bytes (ign : Bool) (t data : Str) (n m : Nat)
    (hd : decode ign t = ⟨data, .ok m⟩) (hpos : 0 < m) (hi : isBase64 ign t = .ok n) : n ≠ m := by
  obtain ⟨pre, ds, p, hs, hp, hend⟩ := scan_text ign t
  rcases hend with rfl | ⟨c, r, rfl, hst⟩
  · obtain ⟨s', e, ha⟩ := decode_shape ign hs hp []
    simp only [List.append_nil] at e
    obtain ⟨hw, ho⟩ := decLoop_nil ign ha
    rw [e] at hd
    by_cases h0 : p = 0 ∧ ds.length % 4 = 0
    · rw [if_pos h0] at ho
      rw [hd] at ho hw
      have hm := Except.ok.inj ho.1
      have hwr := ha.written
      simp only [h0.1, if_true] at hwr
      have e2 := isLoop_shape ign hs hp []
      simp only [List.append_nil] at e2
      rw [isBase64, e2] at hi
      simp [isLoop, h0.1, h0.2] at hi
      omega
    · rw [if_neg h0, hd] at ho
      obtain ⟨_, hx⟩ := ho; cases hx
  · obtain ⟨s', e, ha⟩ := decode_shape ign hs hp (c :: r)
    obtain ⟨ho, _⟩ := decLoop_stop ign ds p c r ha hp hst
    rw [e] at hd
    rw [hd] at ho
    split at ho
    · cases ho
    · obtain ⟨_, hx⟩ := ho; cases hx

example : decode false b!"TWFu" = ⟨b!"Man", .ok 3⟩ ∧ isBase64 false b!"TWFu" = .ok 4 := by decide

/-! ## C07 -/

/-- **C07.** A buffer of `IsBase64` bytes suffices for `Decode`: every byte it writes, however it ends,
lies at an offset below the number `IsBase64` returned. -/
theorem C07_decode_fits (ign : Bool) (t : Str) (n : Nat) (h : isBase64 ign t = .ok n) (hn : 0 < n) :
    (decode ign t).written.length ≤ n := by
  obtain ⟨pre, ds, p, hs, hp, hend⟩ := scan_text ign t
  rcases hend with rfl | ⟨c, r, rfl, hst⟩
  · have e := isLoop_shape ign hs hp []
    simp only [List.append_nil] at e
    rw [isBase64, e] at h
    obtain ⟨s', e', ha⟩ := decode_shape ign hs hp []
    simp only [List.append_nil] at e'
    rw [e', (decLoop_nil ign ha).1, ha.written]
    simp only [isLoop] at h
    split at h
    · have := Except.ok.inj h; omega
    · have := Except.ok.inj h; split <;> (try split) <;> (try split) <;> omega
  · have e := isLoop_shape ign hs hp (c :: r)
    rw [isBase64, e, isLoop_stop ign ds p c r hp hst] at h
    obtain ⟨s', e', ha⟩ := decode_shape ign hs hp (c :: r)
    rw [e', (decLoop_stop ign ds p c r ha hp hst).2]
    split at h
    · cases h
    · split at h
      · have := Except.ok.inj h; split <;> (try split) <;> (try split) <;> omega
      · have := Except.ok.inj h; omega

example : isBase64 false b!"TWE=" = .ok 3 ∧ (decode false b!"TWE=").written.length = 3 := by decide

/-! ## C08 -/

/-- **C08.** Two texts that agree up to white space are treated alike by both functions. -/
theorem C08_white_space_insensitive (ign : Bool) (t u : Str)
    (h : t.filter (fun c => !isSpace c) = u.filter (fun c => !isSpace c)) :
    isBase64 ign t = isBase64 ign u ∧ decode ign t = decode ign u := by
  constructor
  · rw [isBase64, isBase64, ← isLoop_filter_space, h, isLoop_filter_space]
  · rw [decode, decode, ← decLoop_filter_space, h, decLoop_filter_space]

example : b!"TW\n\tFu".filter (fun c => !isSpace c) = b!"TWFu".filter (fun c => !isSpace c) := by decide

/-! ## C09 -/

/-- **C09.** With invalid characters ignored, both functions behave as on the text without them. -/
theorem C09_ignored_as_if_absent (t : Str) (h7 : ∀ c ∈ t, is7bit c = true) :
    isBase64 true t = isBase64 false (t.filter fun c => !isJunk c) ∧
    decode true t = decode true (t.filter fun c => !isJunk c) := by
  constructor
  · rw [isBase64, isBase64, ← isLoop_filter_junk t _ h7]
    apply isLoop_ign_irrel
    intro c hc
    simpa using (List.mem_filter.mp hc).2
  · rw [decode, decode, decLoop_filter_junk t _ h7]

/-- **C09.** With invalid characters not ignored, one that is met before the text is closed makes
`IsBase64` return 0 and `Decode` throw. -/
theorem C09_invalid_rejected (pre rest : Str) (c : UInt8) (hopen : Open false pre)
    (h7 : is7bit c = true) (hj : isJunk c = true) :
    isBase64 false (pre ++ c :: rest) = .ok 0 ∧ Throws (decode false (pre ++ c :: rest)).outcome := by
  obtain ⟨ds, p, hs, hp⟩ := hopen
  have hst : Stops false ds p c := Or.inr (Or.inl ⟨h7, hj, rfl⟩)
  have h61 : c ≠ 61 := by rintro rfl; exact absurd hj (by decide)
  constructor
  · rw [isBase64, isLoop_shape false hs hp, isLoop_stop false ds p c rest hp hst]
    simp [h7, h61]
  · obtain ⟨s', e, ha⟩ := decode_shape false hs hp (c :: rest)
    have := (decLoop_stop false ds p c rest ha hp hst).1
    rw [if_neg (by simp [h7])] at this
    rw [e]; exact this

example : Open false b!"TWF" ∧ is7bit 42 = true ∧ isJunk 42 = true :=
  ⟨⟨b!"TWF", 0, ⟨by decide, by decide, by decide⟩, by decide⟩, by decide, by decide⟩

/-! ## C10 -/

/-- **C10.** Encoding is injective for each setting of `AddNewLines`. -/
theorem C10_encode_injective (nl : Bool) (d e : Str) (h : encode nl d = encode nl e) : d = e := by
  cases nl with
  | false =>
    rw [C01_encode_is_standard_base64, C01_encode_is_standard_base64] at h
    exact text_injective d e (Except.ok.inj h)
  | true =>
    obtain ⟨out, ho, _⟩ := C02_encode_safe true d
    have h1 := C03_payload d out ho
    have h2 := C03_payload e out (by rw [← h]; exact ho)
    exact text_injective d e (by rw [← h1, ← h2])

/-! ## C11 -/

/-- **C11.** Undefined behaviour in `IsBase64` and `Decode` happens exactly when a byte of
128 or more is met after a beginning that is neither rejected nor closed by padding. -/
theorem C11_ub_iff (ign : Bool) (t : Str) :
    (IsUB (isBase64 ign t) ↔ ∃ pre c rest, t = pre ++ c :: rest ∧ Open ign pre ∧ is7bit c = false) ∧
    (IsUB (decode ign t).outcome ↔
      ∃ pre c rest, t = pre ++ c :: rest ∧ Open ign pre ∧ is7bit c = false) := by
  have back : ∀ pre c rest, t = pre ++ c :: rest → Open ign pre → is7bit c = false →
      IsUB (isBase64 ign t) ∧ IsUB (decode ign t).outcome := by
    rintro pre c rest rfl ⟨ds, p, hs, hp⟩ hc
    have hst : Stops ign ds p c := Or.inl hc
    constructor
    · rw [isBase64, isLoop_shape ign hs hp, isLoop_stop ign ds p c rest hp hst, if_pos hc]
      exact ⟨_, rfl⟩
    · obtain ⟨s', e, ha⟩ := decode_shape ign hs hp (c :: rest)
      have := (decLoop_stop ign ds p c rest ha hp hst).1
      rw [if_pos hc] at this
      rw [e, this]; exact ⟨_, rfl⟩
  obtain ⟨pre, ds, p, hs, hp, hend⟩ := scan_text ign t
  constructor
  · constructor
    · intro hub
      rcases hend with rfl | ⟨c, r, rfl, hst⟩
      · have e := isLoop_shape ign hs hp []
        simp only [List.append_nil] at e
        rw [isBase64, e, isLoop] at hub
        obtain ⟨w, hw⟩ := hub
        split at hw <;> cases hw
      · refine ⟨pre, c, r, rfl, ⟨ds, p, hs, hp⟩, ?_⟩
        rw [isBase64, isLoop_shape ign hs hp, isLoop_stop ign ds p c r hp hst] at hub
        obtain ⟨w, hw⟩ := hub
        split at hw
        · assumption
        · split at hw <;> cases hw
    · rintro ⟨pre, c, rest, ht, ho, hc⟩
      exact (back pre c rest ht ho hc).1
  · constructor
    · intro hub
      rcases hend with rfl | ⟨c, r, rfl, hst⟩
      · obtain ⟨s', e, ha⟩ := decode_shape ign hs hp []
        simp only [List.append_nil] at e
        have := (decLoop_nil ign ha).2
        rw [e] at hub
        obtain ⟨w, hw⟩ := hub
        rw [hw] at this
        split at this
        · cases this.1
        · obtain ⟨_, h⟩ := this; cases h
      · refine ⟨pre, c, r, rfl, ⟨ds, p, hs, hp⟩, ?_⟩
        obtain ⟨s', e, ha⟩ := decode_shape ign hs hp (c :: r)
        have := (decLoop_stop ign ds p c r ha hp hst).1
        rw [e] at hub
        obtain ⟨w, hw⟩ := hub
        rw [hw] at this
        split at this
        · assumption
        · obtain ⟨_, h⟩ := this; cases h
    · rintro ⟨pre, c, rest, ht, ho, hc⟩
      exact (back pre c rest ht ho hc).2

/-- **C11.** In particular both functions are defined on every 7-bit text. -/
theorem C11_defined_on_7bit (ign : Bool) (t : Str) (h7 : ∀ c ∈ t, is7bit c = true) :
    ¬ IsUB (isBase64 ign t) ∧ ¬ IsUB (decode ign t).outcome := by
  constructor
  · rw [(C11_ub_iff ign t).1]
    rintro ⟨pre, c, rest, rfl, _, hc⟩
    rw [h7 c (by simp)] at hc; cases hc
  · rw [(C11_ub_iff ign t).2]
    rintro ⟨pre, c, rest, rfl, _, hc⟩
    rw [h7 c (by simp)] at hc; cases hc

example : IsUB (isBase64 false [84, 200]) := ⟨_, rfl⟩
example : Open false [84] := ⟨[84], 0, ⟨by decide, by decide, by decide⟩, by decide⟩

end Verif.Base64
