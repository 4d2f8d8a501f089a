import Verif.Base64.Props

/-!
# C05, C04: what `Decode` has written when it throws

A text with padding makes `Decode` throw after it has written what it decoded; the caller's memory keeps it (C82).
-/

set_option linter.unusedSimpArgs false

namespace Verif.Base64

open Spec

namespace Spec

/-- The six bits a character of the alphabet stands for, most significant first. -/
def digitBits (c : UInt8) : List Bool := [5, 4, 3, 2, 1, 0].map fun i => (alphabet.idxOf c).testBit i

end Spec

/-- Six bits of a number. -/
def six (v : Nat) : List Bool := [5, 4, 3, 2, 1, 0].map fun i => v.testBit i

theorem digitBits_digit : ∀ v < 64, digitBits (digit v) = six v := by decide +kernel

theorem six_join16 : ∀ k < 4, ∀ m < 16, six (16 * k + m) = [k.testBit 1, k.testBit 0, m.testBit 3, m.testBit 2, m.testBit 1, m.testBit 0] := by
  decide +kernel

theorem six_join4 : ∀ k < 16, ∀ m < 4, six (4 * k + m) = [k.testBit 3, k.testBit 2, k.testBit 1, k.testBit 0, m.testBit 1, m.testBit 0] := by
  decide +kernel

theorem six_hi6 (a : UInt8) : six (a.toNat / 4) = [bt a 7, bt a 6, bt a 5, bt a 4, bt a 3, bt a 2] :=
  forall_byte (P := fun a => six (a.toNat / 4) = [bt a 7, bt a 6, bt a 5, bt a 4, bt a 3, bt a 2]) (by decide +kernel) a

theorem six_lo6 (a : UInt8) : six (a.toNat % 64) = [bt a 5, bt a 4, bt a 3, bt a 2, bt a 1, bt a 0] :=
  forall_byte (P := fun a => six (a.toNat % 64) = [bt a 5, bt a 4, bt a 3, bt a 2, bt a 1, bt a 0]) (by decide +kernel) a

theorem two_lo (a : UInt8) : [(a.toNat % 4).testBit 1, (a.toNat % 4).testBit 0] = [bt a 1, bt a 0] :=
  forall_byte (P := fun a => [(a.toNat % 4).testBit 1, (a.toNat % 4).testBit 0] = [bt a 1, bt a 0]) (by decide +kernel) a

theorem two_hi (a : UInt8) : [(a.toNat / 64).testBit 1, (a.toNat / 64).testBit 0] = [bt a 7, bt a 6] :=
  forall_byte (P := fun a => [(a.toNat / 64).testBit 1, (a.toNat / 64).testBit 0] = [bt a 7, bt a 6]) (by decide +kernel) a

theorem four_hi (a : UInt8) : [(a.toNat / 16).testBit 3, (a.toNat / 16).testBit 2, (a.toNat / 16).testBit 1, (a.toNat / 16).testBit 0] = [bt a 7, bt a 6, bt a 5, bt a 4] :=
  forall_byte (P := fun a => [(a.toNat / 16).testBit 3, (a.toNat / 16).testBit 2, (a.toNat / 16).testBit 1, (a.toNat / 16).testBit 0] = [bt a 7, bt a 6, bt a 5, bt a 4])
    (by decide +kernel) a

theorem four_lo (a : UInt8) : [(a.toNat % 16).testBit 3, (a.toNat % 16).testBit 2, (a.toNat % 16).testBit 1, (a.toNat % 16).testBit 0] = [bt a 3, bt a 2, bt a 1, bt a 0] :=
  forall_byte (P := fun a => [(a.toNat % 16).testBit 3, (a.toNat % 16).testBit 2, (a.toNat % 16).testBit 1, (a.toNat % 16).testBit 0] = [bt a 3, bt a 2, bt a 1, bt a 0])
    (by decide +kernel) a

theorem six_mid2 (a b : UInt8) : six (16 * (a.toNat % 4) + b.toNat / 16) = [bt a 1, bt a 0, bt b 7, bt b 6, bt b 5, bt b 4] := by
  have ha := two_lo a
  have hb := four_hi b
  have := b.toNat_lt
  rw [six_join16 _ (by omega) _ (by omega)]
  simp only [List.cons.injEq, and_true] at ha hb ⊢
  exact ⟨ha.1, ha.2, hb⟩

theorem six_mid3 (b c : UInt8) : six (4 * (b.toNat % 16) + c.toNat / 64) = [bt b 3, bt b 2, bt b 1, bt b 0, bt c 7, bt c 6] := by
  have hb := four_lo b
  have hc := two_hi c
  have := c.toNat_lt
  rw [six_join4 _ (by omega) _ (by omega)]
  simp only [List.cons.injEq, and_true] at hb hc ⊢
  exact ⟨hb.1, hb.2.1, hb.2.2.1, hb.2.2.2, hc⟩

/-- The bits of whole groups of three bytes are those of their digits. -/
theorem bits_text (o : Str) (h : o.length % 3 = 0) : (text o).flatMap digitBits = o.flatMap bits := by
  induction o using three_induction with
  | h0 => rfl
  | h1 a => simp at h
  | h2 a b => simp at h
  | h3 a b c r ih =>
    have := a.toNat_lt; have := b.toNat_lt; have := c.toNat_lt
    rw [text_three]
    simp only [List.flatMap_cons, digitBits_digit _ (show a.toNat / 4 < 64 by omega), digitBits_digit _ (show 16 * (a.toNat % 4) + b.toNat / 16 < 64 by omega),
      digitBits_digit _ (show 4 * (b.toNat % 16) + c.toNat / 64 < 64 by omega), digitBits_digit _ (show c.toNat % 64 < 64 by omega),
      six_hi6, six_mid2, six_mid3, six_lo6, ih (by simpa [Nat.add_assoc] using h), bits_eq]
    simp

/-- Once a padding character was met nothing more is written. -/
theorem decLoop_padded_written (ign : Bool) (l : Str) (s : DecState) (hp : s.padded = true) : (decLoop ign l s).written = s.output := by
  induction l generalizing s with
  | nil => rw [decLoop, decEnd]; split <;> rfl
  | cons c r ih =>
    by_cases h7 : is7bit c = true
    · by_cases hd : isDigit c = true
      · simp [decLoop, decStep_digit_padded _ _ _ hd hp]
      by_cases hpad : isPad c = true
      · cases pad_eq c hpad
        simp only [decLoop, decStep_pad, hp, if_true, pure, Except.pure, Except.bind, List.append_nil]
        cases (s.byteNumber + 1 == 4) with
        | true => simp only [decEnd]; split <;> rfl
        | false => exact ih _ rfl
      by_cases hs : isSpace c = true
      · simp only [decLoop, decStep_space _ _ _ hs]; exact ih s hp
      · have hj : isJunk c = true := by simp [isJunk, hd, hs, hpad]
        simp only [decLoop, decStep_junk _ _ _ h7 hj]
        cases ign with
        | true => exact ih s hp
        | false => rfl
    · simp [decLoop, decStep_high _ _ _ (by simpa using h7 : is7bit c = false)]

theorem dec_end1 : ∀ x < 64, (bits (UInt8.ofNat (x <<< 4))) = [x.testBit 3, x.testBit 2, x.testBit 1, x.testBit 0, false, false, false, false] := by
  decide +kernel

theorem dec_end2 : ∀ x < 64, (bits (UInt8.ofNat (x <<< 6))) = [x.testBit 1, x.testBit 0, false, false, false, false, false, false] := by
  decide +kernel

theorem dec_first : ∀ x < 64, ∀ y < 64, bits (UInt8.ofNat ((x <<< 2) ||| (y >>> 4))) =
    [x.testBit 5, x.testBit 4, x.testBit 3, x.testBit 2, x.testBit 1, x.testBit 0, y.testBit 5, y.testBit 4] := by decide +kernel

theorem dec_second : ∀ x < 64, ∀ y < 64, bits (UInt8.ofNat ((x <<< 4) ||| (y >>> 2))) =
    [x.testBit 3, x.testBit 2, x.testBit 1, x.testBit 0, y.testBit 5, y.testBit 4, y.testBit 3, y.testBit 2] := by decide +kernel

/-- What the padding branch writes: the bits of the two or three digits it has, filled with zeros; nothing for one digit or none. -/
theorem padBytes_bits (bn : Nat) (buffer : Str) (h : buffer.length = bn) (hsm : ∀ v ∈ buffer, v.toNat < 64) (hbn : bn < 4) :
    ∃ ws, padBytes bn buffer = .ok ws ∧ ws.flatMap bits =
      (if bn = 1 then [] else (buffer.map fun v => digit v.toNat).flatMap digitBits) ++
        List.replicate (if bn = 2 then 4 else if bn = 3 then 6 else 0) false := by
  unfold padBytes
  match buffer, h with
  | [], h => subst h; exact ⟨[], rfl, rfl⟩
  | [x], h => subst h; exact ⟨[], rfl, rfl⟩
  | [x, y], h =>
    subst h
    have hx := hsm x (by simp)
    have hy := hsm y (by simp)
    refine ⟨_, rfl, ?_⟩
    simp only [List.flatMap_cons, List.flatMap_nil, List.map_cons, List.map_nil, digitBits_digit _ hx, digitBits_digit _ hy, dec_first _ hx _ hy, dec_end1 _ hy]
    rfl
  | [x, y, z], h =>
    subst h
    have hx := hsm x (by simp)
    have hy := hsm y (by simp)
    have hz := hsm z (by simp)
    refine ⟨_, rfl, ?_⟩
    simp only [List.flatMap_cons, List.flatMap_nil, List.map_cons, List.map_nil, digitBits_digit _ hx, digitBits_digit _ hy, digitBits_digit _ hz,
      dec_first _ hx _ hy, dec_second _ hy _ hz, dec_end2 _ hz]
    rfl
  | _ :: _ :: _ :: _ :: _, h => simp at h; omega

/-- The whole groups that were written. -/
theorem AfterDigits.bits_out {s : DecState} {ds : Str} (h : AfterDigits s ds) :
    s.output.flatMap bits = (ds.take (4 * (ds.length / 4))).flatMap digitBits := by
  rw [← bits_text s.output h.out]
  have hl : (text s.output).length = 4 * (ds.length / 4) := by
    have := h.out_length
    rw [text_length]
    omega
  have : ds.take (4 * (ds.length / 4)) = text s.output := by
    rw [← hl, ← h.txt, List.take_left']
    rfl
  rw [this]

/-- **C05.** What has been written when `Decode` ends, normally or not, for every 7-bit text.  Let `pre` be the text up to the end, the first
padding or the first character that is refused, and `ds` its digits.  At the end or at a refused character the bits written are those of the whole
groups of four digits.  At a padding character they are those of all the digits, filled with zeros to whole bytes, but if only one digit is left of
the last group it is dropped; whatever follows the padding is not written. -/
theorem C05_written (ign : Bool) (pre ds rest : Str) (hs : Shape ign pre ds 0) :
    ((rest = [] ∨ ∃ c r, rest = c :: r ∧ is7bit c = true ∧ allowed ign c = false) →
      (decode ign (pre ++ rest)).written.flatMap bits = (ds.take (4 * (ds.length / 4))).flatMap digitBits) ∧
    (∀ r, rest = 61 :: r → (decode ign (pre ++ rest)).written.flatMap bits =
      (if ds.length % 4 = 1 then ds.dropLast else ds).flatMap digitBits ++
        List.replicate (if ds.length % 4 = 2 then 4 else if ds.length % 4 = 3 then 6 else 0) false) := by
  obtain ⟨s, e, ha⟩ := decode_shape ign hs (by omega) rest
  have hd := ha.digits rfl
  rw [e]
  refine ⟨?_, ?_⟩
  · rintro (rfl | ⟨c, r, rfl, h7, hall⟩)
    · rw [(decLoop_nil ign ha).1]
      exact hd.bits_out
    · simp only [allowed, Bool.or_eq_false_iff] at hall
      have hj : isJunk c = true := by simp [isJunk, hall]
      have hi : ign = false := by
        have := hall.2
        cases ign with
        | false => rfl
        | true => simp [hj, h7] at this
      simp only [decLoop, decStep_junk _ _ _ h7 hj, hi]
      exact hd.bits_out
  · rintro r rfl
    obtain ⟨ws, hw, hb⟩ := padBytes_bits s.byteNumber s.buffer hd.buf hd.small hd.lt
    have hout : (decLoop ign (61 :: r) s).written = s.output ++ ws := by
      simp only [decLoop, decStep_pad, hd.np, Bool.false_eq_true, if_false, hw, Except.bind]
      cases (s.byteNumber + 1 == 4) with
      | true => simp only [decEnd]; split <;> rfl
      | false => exact decLoop_padded_written ign r _ rfl
    rw [hout, List.flatMap_append, hb, hd.length_mod, ← List.append_assoc]
    congr 1
    rw [← bits_text s.output hd.out, ← hd.txt]
    by_cases h1 : s.byteNumber = 1
    · rw [if_pos h1, if_pos h1]
      have hl := hd.buf
      rw [h1] at hl
      match hbuf : s.buffer, hl with
      | [x], _ => simp
    · rw [if_neg h1, if_neg h1, List.flatMap_append]

/-- Every 7-bit text is of one of these forms. -/
theorem C05_every_text (ign : Bool) (t : Str) (h7 : ∀ c ∈ t, is7bit c = true) :
    ∃ pre ds rest, t = pre ++ rest ∧ Shape ign pre ds 0 ∧
      ((rest = [] ∨ ∃ c r, rest = c :: r ∧ is7bit c = true ∧ allowed ign c = false) ∨ ∃ r, rest = 61 :: r) := by
  induction t with
  | nil => exact ⟨[], [], [], rfl, ⟨by simp, by simp, by simp [core]⟩, .inl (.inl rfl)⟩
  | cons c t ih =>
    have hc := h7 c (by simp)
    by_cases hp : c = 61
    · exact ⟨[], [], c :: t, rfl, ⟨by simp, by simp, by simp [core]⟩, .inr ⟨t, by rw [hp]⟩⟩
    by_cases hal : allowed ign c = true
    · obtain ⟨pre, ds, rest, rfl, ⟨h1, h2, h3⟩, h4⟩ := ih (fun x hx => h7 x (by simp [hx]))
      have hpad : isPad c = false := by
        cases hx : isPad c with
        | true => exact absurd (pad_eq c hx) hp
        | false => rfl
      by_cases hdig : isDigit c = true
      · refine ⟨c :: pre, c :: ds, rest, rfl, ⟨?_, ?_, ?_⟩, h4⟩
        · intro x hx
          rcases List.mem_cons.mp hx with rfl | hx
          · exact hal
          · exact h1 x hx
        · intro x hx
          rcases List.mem_cons.mp hx with rfl | hx
          · exact hdig
          · exact h2 x hx
        · rw [core] at h3 ⊢
          simp only [List.filter_cons, hdig, Bool.true_or, if_true, h3, List.cons_append]
      · refine ⟨c :: pre, ds, rest, rfl, ⟨?_, h2, ?_⟩, h4⟩
        · intro x hx
          rcases List.mem_cons.mp hx with rfl | hx
          · exact hal
          · exact h1 x hx
        · rw [core] at h3 ⊢
          simp only [List.filter_cons, hdig, hpad, Bool.or_self, Bool.false_eq_true, if_false, h3]
    · exact ⟨[], [], c :: t, rfl, ⟨by simp, by simp, by simp [core]⟩, .inl (.inr ⟨c, t, rfl, hc, by simpa using hal⟩)⟩

/-! ## Encoded data -/

theorem bits_inj (a b : UInt8) (h : bits a = bits b) : a = b := by
  have hv : ∀ a : UInt8, value (bits a) = a.toNat := fun a => forall_byte (P := fun a => value (bits a) = a.toNat) (by decide +kernel) a
  apply UInt8.toNat_inj.mp
  rw [← hv a, ← hv b, h]

theorem flatMap_bits_inj (d e : Str) (h : d.flatMap bits = e.flatMap bits) : d = e := by
  induction d generalizing e with
  | nil => cases e with
    | nil => rfl
    | cons b e => simp [bits] at h
  | cons a d ih => cases e with
    | nil => simp [bits] at h
    | cons b e =>
      rw [List.flatMap_cons, List.flatMap_cons] at h
      obtain ⟨h1, h2⟩ := List.append_inj h (by simp [bits])
      rw [bits_inj a b h1, ih e h2]

/-- The digits of a standard text with padding, and their bits. -/
theorem text_digits (data : Str) : ∃ ds, (∀ c ∈ ds, isDigit c = true) ∧ text data = ds ++ List.replicate ((3 - data.length % 3) % 3) 61 ∧
    ds.length % 4 = (if data.length % 3 = 0 then 0 else data.length % 3 + 1) ∧
    ds.flatMap digitBits = data.flatMap bits ++ List.replicate (if data.length % 3 = 1 then 4 else if data.length % 3 = 2 then 2 else 0) false := by
  have hdg : ∀ v < 64, isDigit (digit v) = true := by decide +kernel
  induction data using three_induction with
  | h0 => exact ⟨[], by simp, rfl, rfl, rfl⟩
  | h1 a =>
    have := a.toNat_lt
    have e2 := six_mid2 a 0
    simp only [UInt8.toNat_zero, Nat.zero_div, Nat.add_zero] at e2
    refine ⟨[digit (a.toNat / 4), digit (16 * (a.toNat % 4))], ?_, ?_, rfl, ?_⟩
    · intro c hc
      simp only [List.mem_cons, List.not_mem_nil, or_false] at hc
      rcases hc with rfl | rfl <;> exact hdg _ (by omega)
    · rw [text_one]; rfl
    · simp only [List.flatMap_cons, List.flatMap_nil, digitBits_digit _ (show a.toNat / 4 < 64 by omega),
        digitBits_digit _ (show 16 * (a.toNat % 4) < 64 by omega), six_hi6, e2, bits_eq]
      rfl
  | h2 a b =>
    have := a.toNat_lt; have := b.toNat_lt
    have e3 := six_mid3 b 0
    simp only [UInt8.toNat_zero, Nat.zero_div, Nat.add_zero] at e3
    refine ⟨[digit (a.toNat / 4), digit (16 * (a.toNat % 4) + b.toNat / 16), digit (4 * (b.toNat % 16))], ?_, ?_, rfl, ?_⟩
    · intro c hc
      simp only [List.mem_cons, List.not_mem_nil, or_false] at hc
      rcases hc with rfl | rfl | rfl <;> exact hdg _ (by omega)
    · rw [text_two]; rfl
    · simp only [List.flatMap_cons, List.flatMap_nil, digitBits_digit _ (show a.toNat / 4 < 64 by omega),
        digitBits_digit _ (show 16 * (a.toNat % 4) + b.toNat / 16 < 64 by omega), digitBits_digit _ (show 4 * (b.toNat % 16) < 64 by omega),
        six_hi6, six_mid2, e3, bits_eq]
      rfl
  | h3 a b c r ih =>
    obtain ⟨ds, h1, h2, h3, h4⟩ := ih
    have := a.toNat_lt; have := b.toNat_lt; have := c.toNat_lt
    have hm : (a :: b :: c :: r).length % 3 = r.length % 3 := by simp [Nat.add_assoc]
    have ht := bits_text [a, b, c] (by simp)
    rw [text_three, text_nil] at ht
    refine ⟨digit (a.toNat / 4) :: digit (16 * (a.toNat % 4) + b.toNat / 16) :: digit (4 * (b.toNat % 16) + c.toNat / 64) :: digit (c.toNat % 64) :: ds, ?_, ?_, ?_, ?_⟩
    · intro x hx
      simp only [List.mem_cons] at hx
      rcases hx with rfl | rfl | rfl | rfl | hx
      iterate 4 exact hdg _ (by omega)
      exact h1 x hx
    · rw [text_three, hm, h2]; rfl
    · rw [hm, ← h3]; simp [Nat.add_assoc]
    · rw [hm]
      simp only [List.flatMap_cons, List.flatMap_nil, List.append_nil] at ht ⊢
      rw [h4]
      simp only [List.append_assoc] at ht ⊢
      have ht2 := congrArg (· ++ (List.flatMap bits r ++ List.replicate (if r.length % 3 = 1 then 4 else if r.length % 3 = 2 then 2 else 0) false)) ht
      simpa [List.append_assoc] using ht2

/-- The bits of no byte but zero. -/
theorem bits_zero : bits 0 = List.replicate 8 false := rfl

/-- **C04.** Whether or not `Decode` throws on what `Encode` produced, it has written the data; if the number of bytes is not a multiple of three
it has also written one byte more, which is zero. -/
theorem C04_written (nl ign : Bool) (data out : Str) (h : encode nl data = .ok out) :
    (decode ign out).written = data ++ (if data.length % 3 = 0 then [] else [0]) := by
  obtain ⟨ds, h1, h2, h3, h4⟩ := text_digits data
  rw [encode_eq] at h
  injection h with h
  -- the text up to the padding or the NULs
  have hshape : ∀ pre : Str, (∀ c ∈ pre, isDigit c = true ∨ isSpace c = true) → pre.filter isDigit = ds → Shape ign pre ds 0 := by
    intro pre ha hf
    refine ⟨?_, h1, ?_⟩
    · intro c hc
      rcases ha c hc with h | h <;> simp [allowed, h]
    · rw [List.replicate_zero, List.append_nil, ← hf, core]
      apply List.filter_congr
      intro c hc
      rcases ha c hc with h | h
      · simp [h]
      · have hpad : isPad c = false := by
          cases hx : isPad c with
          | true => rw [(pad_not c hx).2] at h; cases h
          | false => rfl
        simp [hpad]
  -- the text with or without the line break
  have hcut : ∃ pre : Str, (∀ c ∈ pre, isDigit c = true ∨ isSpace c = true) ∧ pre.filter isDigit = ds ∧
      ∃ k, out = pre ++ (List.replicate ((3 - data.length % 3) % 3) 61 ++ List.replicate k 0) := by
    have hfilt : ∀ l : Str, (∀ c ∈ l, isDigit c = true) → l.filter isDigit = l := fun l hl => List.filter_eq_self.mpr hl
    cases nl with
    | false =>
      refine ⟨ds, fun c hc => .inl (h1 c hc), hfilt ds h1, ?_⟩
      rw [emitted_off, h2] at h
      exact ⟨_, by rw [← h, List.append_assoc]⟩
    | true =>
      rw [emitted_on_zero] at h
      by_cases h54 : 54 ≤ data.length
      · rw [if_pos h54] at h
        have hlen : 72 ≤ ds.length := by
          have ha := congrArg List.length h2
          rw [text_length, List.length_append, List.length_replicate] at ha
          omega
        refine ⟨ds.take 72 ++ [10] ++ ds.drop 72, ?_, ?_, ?_⟩
        · intro c hc
          simp only [List.mem_append, List.mem_singleton] at hc
          rcases hc with (hc | rfl) | hc
          · exact .inl (h1 c (List.mem_of_mem_take hc))
          · exact .inr (by decide)
          · exact .inl (h1 c (List.mem_of_mem_drop hc))
        · rw [List.filter_append, List.filter_append, hfilt _ (fun c hc => h1 c (List.mem_of_mem_take hc)), hfilt _ (fun c hc => h1 c (List.mem_of_mem_drop hc))]
          have : [(10 : UInt8)].filter isDigit = [] := by decide
          rw [this, List.append_nil, List.take_append_drop]
        · rw [h2, List.take_append_of_le_length hlen, List.drop_append_of_le_length hlen] at h
          simp only [List.append_assoc, List.cons_append, List.nil_append] at h ⊢
          exact ⟨_, h.symm⟩
      · rw [if_neg h54] at h
        refine ⟨ds, fun c hc => .inl (h1 c hc), hfilt ds h1, ?_⟩
        rw [h2] at h
        exact ⟨_, by rw [← h, List.append_assoc]⟩
  obtain ⟨pre, ha, hf, k, rfl⟩ := hcut
  have hs := hshape pre ha hf
  apply flatMap_bits_inj
  have hlt : data.length % 3 < 3 := Nat.mod_lt _ (by omega)
  by_cases h0 : data.length % 3 = 0
  · rw [if_pos h0, List.append_nil]
    rw [h0] at h3 h4
    have hw : (decode ign (pre ++ List.replicate k 0)).written.flatMap bits = ds.flatMap digitBits := by
      have hfull : ds.take (4 * (ds.length / 4)) = ds := by
        rw [List.take_of_length_le]
        simp only [if_true] at h3
        omega
      cases ign with
      | false =>
        rw [(C05_written false pre ds (List.replicate k 0) hs).1, hfull]
        cases k with
        | zero => exact .inl rfl
        | succ k => exact .inr ⟨0, _, rfl, by decide, by decide⟩
      | true =>
        have hs' : Shape true (pre ++ List.replicate k 0) ds 0 := by
          refine ⟨?_, h1, ?_⟩
          · intro c hc
            rcases List.mem_append.mp hc with hc | hc
            · exact hs.1 c hc
            · rw [(List.mem_replicate.mp hc).2]; decide
          · rw [core_append, hs.2.2]
            have : core (List.replicate k 0) = [] := by
              rw [core, List.filter_eq_nil_iff]
              intro c hc
              rw [(List.mem_replicate.mp hc).2]; decide
            rw [this, List.append_nil]
        have := (C05_written true (pre ++ List.replicate k 0) ds [] hs').1 (.inl rfl)
        rw [List.append_nil] at this
        rw [this, hfull]
    have he : pre ++ (List.replicate ((3 - data.length % 3) % 3) 61 ++ List.replicate k 0) = pre ++ List.replicate k 0 := by rw [h0]; rfl
    rw [he, hw, h4]
    simp
  · rw [if_neg h0]
    obtain ⟨r, hr⟩ : ∃ r, List.replicate ((3 - data.length % 3) % 3) 61 ++ List.replicate k (0 : UInt8) = 61 :: r := by
      have : (3 - data.length % 3) % 3 = ((3 - data.length % 3) % 3 - 1) + 1 := by omega
      rw [this, List.replicate_succ]
      exact ⟨_, rfl⟩
    rw [(C05_written ign pre ds _ hs).2 r hr, h3, if_neg h0, if_neg (by omega : ¬ data.length % 3 + 1 = 1), h4, List.flatMap_append]
    rcases (by omega : data.length % 3 = 1 ∨ data.length % 3 = 2) with hm | hm
    all_goals
      rw [hm]
      simp [h4, hm, bits_zero, List.replicate_append_replicate]
      try rfl

/-- Two bytes: three are written, then the exception. -/
example : decode false b!"TWE=" = ⟨b!"Ma" ++ [0], .error (.thrown "invalid base64 string, unexpected end")⟩ := by decide
example : (decode false b!"TWE=").written = b!"Ma" ++ [0] := C04_written false false b!"Ma" _ (C01_encode_is_standard_base64 _)
/-- A text with padding whose unused bits are not zero, not produced by `Encode`. -/
example : (decode false b!"TWFuTR==").written = b!"ManM" ++ [16] := by
  apply flatMap_bits_inj
  exact (C05_written false b!"TWFuTR" b!"TWFuTR" b!"==" (by refine ⟨by decide, by decide, by decide⟩)).2 b!"=" rfl

end Verif.Base64
