import Verif.Base64.EncodeLemmas

set_option linter.unusedSimpArgs false

namespace Verif.Base64

open Spec

theorem forall_7bit {P : UInt8 → Prop} (h : ∀ n < 128, P (UInt8.ofNat n)) (b : UInt8)
    (hb : is7bit b = true) : P b := by
  have hlt : b.toNat < 128 := by simpa [is7bit, UInt8.lt_iff_toNat_lt] using hb
  have := h b.toNat hlt
  simpa using this

/-- The table entry of a character. -/
def val (c : UInt8) : UInt8 := base64bits.getD c.toNat 0

/-! ### The table, character class by character class -/

theorem digit_7bit (c : UInt8) : isDigit c = true → is7bit c = true :=
  forall_byte (P := fun c => isDigit c = true → is7bit c = true) (by decide +kernel) c
theorem space_7bit (c : UInt8) : isSpace c = true → is7bit c = true :=
  forall_byte (P := fun c => isSpace c = true → is7bit c = true) (by decide +kernel) c
theorem digit_not (c : UInt8) : isDigit c = true → isPad c = false ∧ isSpace c = false :=
  forall_byte (P := fun c => isDigit c = true → isPad c = false ∧ isSpace c = false)
    (by decide +kernel) c
theorem pad_not (c : UInt8) : isPad c = true → isDigit c = false ∧ isSpace c = false :=
  forall_byte (P := fun c => isPad c = true → isDigit c = false ∧ isSpace c = false)
    (by decide +kernel) c

theorem bitsAt_7bit (c : UInt8) (h : is7bit c = true) : bitsAt c = .ok (val c) :=
  forall_7bit (P := fun c => bitsAt c = .ok (val c)) (by decide +kernel) c h

theorem bitsAt_high (c : UInt8) (h : is7bit c = false) :
    bitsAt c = .error (.ub "negative index into base64bits") := by
  have : 128 ≤ c.toNat := by simpa [is7bit, UInt8.lt_iff_toNat_lt] using h
  simp [bitsAt, this]

theorem val_digit (c : UInt8) (h : isDigit c = true) :
    (val c).toNat < 64 ∧ digit (val c).toNat = c ∧ val c ≤ 64 ∧ val c ≠ paddingBits := by
  have := forall_7bit (P := fun c => isDigit c = true →
    (val c).toNat < 64 ∧ digit (val c).toNat = c ∧ val c ≤ 64 ∧ val c ≠ paddingBits)
    (by decide +kernel) c (digit_7bit c h)
  exact this h

theorem val_space (c : UInt8) (h : isSpace c = true) : val c = whiteSpaceBits := by
  have := forall_7bit (P := fun c => isSpace c = true → val c = whiteSpaceBits)
    (by decide +kernel) c (space_7bit c h)
  exact this h

theorem pad_eq (c : UInt8) (h : isPad c = true) : c = 61 := by simpa [isPad] using h

theorem val_pad : val 61 = paddingBits := by decide

theorem val_junk (c : UInt8) (h7 : is7bit c = true) (h : isJunk c = true) : val c = invalidBits := by
  have := forall_7bit (P := fun c => isJunk c = true → val c = invalidBits)
    (by decide +kernel) c h7
  exact this h

/-! ### One step of the two loops, by character class -/

theorem isLoop_space (ign : Bool) (c : UInt8) (r : Str) (s : IsState) (h : isSpace c = true) :
    isLoop ign (c :: r) s = isLoop ign r s := by
  simp [isLoop, bitsAt_7bit c (space_7bit c h), val_space c h, bind, Except.bind, whiteSpaceBits,
    paddingBits, UInt8.le_iff_toNat_le]

theorem isLoop_junk (ign : Bool) (c : UInt8) (r : Str) (s : IsState) (h7 : is7bit c = true)
    (h : isJunk c = true) : isLoop ign (c :: r) s = if ign then isLoop ign r s else .ok 0 := by
  simp [isLoop, bitsAt_7bit c h7, val_junk c h7 h, bind, Except.bind, whiteSpaceBits, invalidBits,
    paddingBits, UInt8.le_iff_toNat_le]

theorem isLoop_digit (ign : Bool) (c : UInt8) (r : Str) (s : IsState) (h : isDigit c = true) :
    isLoop ign (c :: r) s = if s.padded then .ok 0 else
      isLoop ign r { s with byteNumber := if s.byteNumber + 1 = 4 then 0 else s.byteNumber + 1,
                            bytesRead := s.bytesRead + 1 } := by
  obtain ⟨_, _, h3, h4⟩ := val_digit c h
  simp [isLoop, bitsAt_7bit c (digit_7bit c h), h3, h4, bind, Except.bind]

theorem isLoop_pad (ign : Bool) (r : Str) (s : IsState) :
    isLoop ign (61 :: r) s = if s.byteNumber + 1 = 4 then .ok s.bytesRead else
      isLoop ign r { s with byteNumber := s.byteNumber + 1, padded := true } := by
  simp [isLoop, bitsAt_7bit 61 (by decide), val_pad, bind, Except.bind, paddingBits,
    UInt8.le_iff_toNat_le]

theorem isLoop_high (ign : Bool) (c : UInt8) (r : Str) (s : IsState) (h : is7bit c = false) :
    isLoop ign (c :: r) s = .error (.ub "negative index into base64bits") := by
  simp [isLoop, bitsAt_high c h, bind, Except.bind]

theorem decStep_space (ign : Bool) (c : UInt8) (s : DecState) (h : isSpace c = true) :
    decStep ign c s = .ok (s, false) := by
  simp [decStep, bitsAt_7bit c (space_7bit c h), val_space c h, bind, Except.bind, whiteSpaceBits,
    paddingBits, UInt8.le_iff_toNat_le, pure, Except.pure]

theorem decStep_junk (ign : Bool) (c : UInt8) (s : DecState) (h7 : is7bit c = true)
    (h : isJunk c = true) : decStep ign c s =
      if ign then .ok (s, false) else .error (.thrown "invalid base64 string, invalid char") := by
  simp [decStep, bitsAt_7bit c h7, val_junk c h7 h, bind, Except.bind, whiteSpaceBits, invalidBits,
    paddingBits, UInt8.le_iff_toNat_le, pure, Except.pure, throw, throwThe, MonadExceptOf.throw]

theorem decStep_high (ign : Bool) (c : UInt8) (s : DecState) (h : is7bit c = false) :
    decStep ign c s = .error (.ub "negative index into base64bits") := by
  simp [decStep, bitsAt_high c h, bind, Except.bind]

theorem decStep_pad (ign : Bool) (s : DecState) :
    decStep ign 61 s = (if s.padded then pure [] else padBytes s.byteNumber s.buffer).bind fun ws =>
      .ok ({ s with output := s.output ++ ws, padded := true, byteNumber := s.byteNumber + 1 },
        s.byteNumber + 1 == 4) := by
  simp only [decStep, bitsAt_7bit 61 (by decide), val_pad, bind, Except.bind]
  cases s.padded <;> simp [paddingBits, UInt8.le_iff_toNat_le, pure, Except.pure]

theorem decStep_digit (ign : Bool) (c : UInt8) (s : DecState) (h : isDigit c = true)
    (hp : s.padded = false) (hb : s.byteNumber < 4) :
    decStep ign c s =
      if s.byteNumber + 1 = 4 then
        (groupBytes (s.buffer ++ [val c])).bind fun ws =>
        .ok ({ s with byteNumber := 0, buffer := [], output := s.output ++ ws,
                      bytesRead := s.bytesRead + 1 - 1 }, false)
      else .ok ({ s with byteNumber := s.byteNumber + 1, buffer := s.buffer ++ [val c],
                         bytesRead := s.bytesRead + 1 }, false) := by
  obtain ⟨_, _, h3, h4⟩ := val_digit c h
  have hb' : ¬ 4 ≤ s.byteNumber := by omega
  simp [decStep, bitsAt_7bit c (digit_7bit c h), h3, h4, bind, Except.bind, hp, hb', pure,
    Except.pure]

theorem decStep_digit_padded (ign : Bool) (c : UInt8) (s : DecState) (h : isDigit c = true)
    (hp : s.padded = true) :
    decStep ign c s = .error (.thrown "invalid base64 string, improper termination") := by
  obtain ⟨_, _, h3, h4⟩ := val_digit c h
  simp [decStep, bitsAt_7bit c (digit_7bit c h), h3, h4, bind, Except.bind, hp, throw, throwThe,
    MonadExceptOf.throw]

/-! ### White space and ignored characters drop out -/

theorem isLoop_filter_space (ign : Bool) (l : Str) (s : IsState) :
    isLoop ign (l.filter (fun c => !isSpace c)) s = isLoop ign l s := by
  induction l generalizing s with
  | nil => rfl
  | cons c r ih =>
    by_cases h : isSpace c = true
    · simp [h, isLoop_space, ih]
    · simp only [h, List.filter_cons]
      by_cases h7 : is7bit c = true
      · by_cases hd : isDigit c = true
        · simp [isLoop_digit _ _ _ _ hd, ih]
        · by_cases hp : isPad c = true
          · cases pad_eq c hp
            simp [isLoop_pad, ih]
          · have hj : isJunk c = true := by simp [isJunk, hd, h, hp]
            simp [isLoop_junk _ _ _ _ h7 hj, ih]
      · have h7 : is7bit c = false := by simpa using h7
        simp [isLoop_high _ _ _ _ h7]

theorem decLoop_filter_space (ign : Bool) (l : Str) (s : DecState) :
    decLoop ign (l.filter (fun c => !isSpace c)) s = decLoop ign l s := by
  induction l generalizing s with
  | nil => rfl
  | cons c r ih =>
    by_cases h : isSpace c = true
    · simp [h, decLoop, decStep_space, ih]
    · simp only [h, List.filter_cons, decLoop, Bool.not_false, if_true]
      split <;> simp_all

theorem isLoop_filter_junk (l : Str) (s : IsState) (h7 : ∀ c ∈ l, is7bit c = true) :
    isLoop true (l.filter (fun c => !isJunk c)) s = isLoop true l s := by
  induction l generalizing s with
  | nil => rfl
  | cons c r ih =>
    have hc := h7 c (by simp)
    have ih := fun s => ih s (fun c hc => h7 c (by simp [hc]))
    by_cases h : isJunk c = true
    · simp [h, isLoop_junk _ _ _ _ hc h, ih]
    · simp only [h, List.filter_cons]
      by_cases hd : isDigit c = true
      · simp [isLoop_digit _ _ _ _ hd, ih]
      · by_cases hp : isPad c = true
        · cases pad_eq c hp
          simp [isLoop_pad, ih]
        · have hs : isSpace c = true := by simp [isJunk, hd, hp] at h; exact h
          simp [isLoop_space _ _ _ _ hs, ih]

/-- With invalid characters ignored or not, junk-free text is treated alike. -/
theorem isLoop_ign_irrel (l : Str) (s : IsState) (ign ign' : Bool)
    (hj : ∀ c ∈ l, isJunk c = false) : isLoop ign l s = isLoop ign' l s := by
  induction l generalizing s with
  | nil => rfl
  | cons c r ih =>
    have hc := hj c (by simp)
    have ih := fun s => ih s (fun c hc => hj c (by simp [hc]))
    by_cases hd : isDigit c = true
    · simp [isLoop_digit _ _ _ _ hd, ih]
    · by_cases hp : isPad c = true
      · cases pad_eq c hp
        simp [isLoop_pad, ih]
      · have hs : isSpace c = true := by simp [isJunk, hd, hp] at hc; exact hc
        simp [isLoop_space _ _ _ _ hs, ih]

theorem decLoop_filter_junk (l : Str) (s : DecState) (h7 : ∀ c ∈ l, is7bit c = true) :
    decLoop true (l.filter (fun c => !isJunk c)) s = decLoop true l s := by
  induction l generalizing s with
  | nil => rfl
  | cons c r ih =>
    have hc := h7 c (by simp)
    have ih := fun s => ih s (fun c hc => h7 c (by simp [hc]))
    by_cases h : isJunk c = true
    · simp [h, decLoop, decStep_junk _ _ _ hc h, ih]
    · simp only [h, List.filter_cons, decLoop, Bool.not_false, if_true]
      split <;> simp_all

/-! ### Decoding digits -/

theorem dec_b0 : ∀ x < 64, ∀ y < 64,
    (UInt8.ofNat ((x <<< 2) ||| (y >>> 4))).toNat = 4 * x + y / 16 := by decide +kernel
theorem dec_b1 : ∀ x < 64, ∀ y < 64,
    (UInt8.ofNat ((x <<< 4) ||| (y >>> 2))).toNat = 16 * (x % 16) + y / 4 := by decide +kernel
theorem dec_b2 : ∀ x < 64, ∀ y < 64,
    (UInt8.ofNat ((x <<< 6) ||| y)).toNat = 64 * (x % 4) + y := by decide +kernel

theorem text_append (o r : Str) (h : o.length % 3 = 0) : text (o ++ r) = text o ++ text r := by
  induction o using three_induction with
  | h0 => rfl
  | h1 a => simp at h
  | h2 a b => simp at h
  | h3 a b c o ih =>
    have := ih (by simpa [Nat.add_assoc] using h)
    simp only [List.cons_append, text_three, this]

/-- Decoder state after reading exactly the digits `ds` (and ignorable characters). -/
structure AfterDigits (s : DecState) (ds : Str) : Prop where
  buf : s.buffer.length = s.byteNumber
  lt : s.byteNumber < 4
  np : s.padded = false
  read : s.bytesRead = s.output.length + s.byteNumber
  out : s.output.length % 3 = 0
  small : ∀ v ∈ s.buffer, v.toNat < 64
  txt : text s.output ++ s.buffer.map (fun v => digit v.toNat) = ds

theorem AfterDigits.length_mod {s : DecState} {ds : Str} (h : AfterDigits s ds) :
    ds.length % 4 = s.byteNumber := by
  have h1 := congrArg List.length h.txt
  have h2 := h.lt
  have h3 := h.out
  simp only [List.length_append, text_length, List.length_map, h.buf] at h1
  omega

theorem AfterDigits.start :
    AfterDigits { byteNumber := 0, buffer := [], output := [], bytesRead := 0, padded := false }
      [] := by
  constructor <;> simp [text_nil]

theorem AfterDigits.step (ign : Bool) {s : DecState} {ds : Str} (h : AfterDigits s ds) {c : UInt8}
    (hc : isDigit c = true) :
    ∃ s', decStep ign c s = .ok (s', false) ∧ AfterDigits s' (ds ++ [c]) := by
  obtain ⟨hv1, hv2, _, _⟩ := val_digit c hc
  rw [decStep_digit ign c s hc h.np h.lt]
  obtain ⟨hbuf, hlt, hnp, hread, hout, hsm, htx⟩ := h
  by_cases h4 : s.byteNumber + 1 = 4
  · rw [if_pos h4]
    have hl : s.buffer.length = 3 := by omega
    obtain ⟨x, y, z, hxyz⟩ : ∃ x y z, s.buffer = [x, y, z] := by
      match hb : s.buffer, hl with
      | [x, y, z], _ => exact ⟨x, y, z, rfl⟩
    have hx := hsm x (by simp [hxyz])
    have hy := hsm y (by simp [hxyz])
    have hz := hsm z (by simp [hxyz])
    simp only [hxyz, groupBytes, bufAt, bind, Except.bind, pure, Except.pure]
    simp only [List.cons_append, List.nil_append, List.getElem?_cons_zero, List.getElem?_cons_succ]
    refine ⟨_, rfl, ?_⟩
    constructor
    · rfl
    · show 0 < 4; omega
    · exact hnp
    · simp; omega
    · simp; omega
    · simp
    · rw [text_append _ _ hout, text_three, text_nil, ← htx, hxyz]
      simp only [dec_b0 _ hx _ hy, dec_b1 _ hy _ hz, dec_b2 _ hz _ hv1]
      have e1 : (4 * x.toNat + y.toNat / 16) / 4 = x.toNat := by omega
      have e2 : 16 * ((4 * x.toNat + y.toNat / 16) % 4) + (16 * (y.toNat % 16) + z.toNat / 4) / 16
          = y.toNat := by omega
      have e3 : 4 * ((16 * (y.toNat % 16) + z.toNat / 4) % 16)
          + (64 * (z.toNat % 4) + (val c).toNat) / 64 = z.toNat := by omega
      have e4 : (64 * (z.toNat % 4) + (val c).toNat) % 64 = (val c).toNat := by omega
      rw [e1, e2, e3, e4, hv2]
      simp
  · rw [if_neg h4]
    refine ⟨_, rfl, ?_⟩
    constructor
    · simp [hbuf]
    · show s.byteNumber + 1 < 4; omega
    · exact hnp
    · simp only; omega
    · exact hout
    · intro v hv
      simp only [List.mem_append, List.mem_singleton] at hv
      rcases hv with hv | rfl
      · exact hsm v hv
      · exact hv1
    · rw [← htx]; simp [hv2]

theorem decLoop_digits (ign : Bool) (ds' r : Str) {s : DecState} {ds : Str} (h : AfterDigits s ds)
    (hd : ∀ c ∈ ds', isDigit c = true) :
    ∃ s', decLoop ign (ds' ++ r) s = decLoop ign r s' ∧ AfterDigits s' (ds ++ ds') := by
  induction ds' generalizing s ds with
  | nil => exact ⟨s, by simp, by simpa using h⟩
  | cons c l ih =>
    obtain ⟨s1, e1, h1⟩ := h.step ign (hd c (by simp))
    obtain ⟨s2, e2, h2⟩ := ih h1 (fun c hc => hd c (by simp [hc]))
    exact ⟨s2, by simp [decLoop, e1, e2], by simpa using h2⟩

/-- Once a padding character was met the decoder never returns normally. -/
theorem decLoop_padded (ign : Bool) (l : Str) (s : DecState) (hp : s.padded = true)
    (hb : 1 ≤ s.byteNumber) (h7 : ∀ c ∈ l, is7bit c = true) :
    Throws (decLoop ign l s).outcome := by
  induction l generalizing s with
  | nil =>
    have : s.byteNumber ≠ 0 := by omega
    simp [decLoop, decEnd, this, Throws]
  | cons c r ih =>
    have hc := h7 c (by simp)
    have ih := fun s hp hb => ih s hp hb (fun c hc => h7 c (by simp [hc]))
    by_cases hd : isDigit c = true
    · simp [decLoop, decStep_digit_padded _ _ _ hd hp, Throws]
    · by_cases hpad : isPad c = true
      · cases pad_eq c hpad
        simp only [decLoop, decStep_pad, hp, if_true, pure, Except.pure, Except.bind]
        by_cases h4 : s.byteNumber + 1 = 4
        · simp [h4, decEnd, Throws]
        · have : (s.byteNumber + 1 == 4) = false := by simpa using h4
          rw [this]
          exact ih _ rfl (by simp)
      · by_cases hs : isSpace c = true
        · simp only [decLoop, decStep_space _ _ _ hs]
          exact ih s hp hb
        · have hj : isJunk c = true := by simp [isJunk, hd, hs, hpad]
          simp only [decLoop, decStep_junk _ _ _ hc hj]
          cases ign with
          | true => exact ih s hp hb
          | false => simp [Throws]

/-- The padding branch never reads an unwritten buffer entry. -/
theorem padBytes_ok (bn : Nat) (buffer : Str) (h : buffer.length = bn) :
    ∃ ws, padBytes bn buffer = .ok ws ∧ ws.length = if bn = 2 then 2 else if bn = 3 then 3 else 0 := by
  unfold padBytes
  by_cases h2 : bn = 2
  · subst h2
    match buffer, h with
    | [x, y], _ =>
      simp [bufAt, bind, Except.bind, pure, Except.pure]
  · by_cases h3 : bn = 3
    · subst h3
      match buffer, h with
      | [x, y, z], _ =>
        simp [bufAt, bind, Except.bind, pure, Except.pure]
    · simp [h2, h3, pure, Except.pure]

end Verif.Base64
