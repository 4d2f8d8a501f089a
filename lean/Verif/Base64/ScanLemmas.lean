import Verif.Base64.DecodeLemmas

set_option linter.unusedSimpArgs false

namespace Verif.Base64

open Spec

/-! ### Reading a text up to the point where both loops decide -/

theorem allowed_7bit {ign : Bool} {c : UInt8} (h : allowed ign c = true) : is7bit c = true := by
  simp only [allowed, Bool.or_eq_true, Bool.and_eq_true] at h
  rcases h with ((h | h) | h) | h
  · exact digit_7bit c h
  · cases pad_eq c h; decide
  · exact space_7bit c h
  · exact h.2

/-- What stops the scan of `pre` (with digits `ds`, `p` paddings) at the character `c`. -/
def Stops (ign : Bool) (ds : Str) (p : Nat) (c : UInt8) : Prop :=
  is7bit c = false ∨ (is7bit c = true ∧ isJunk c = true ∧ ign = false) ∨
    (isDigit c = true ∧ 0 < p) ∨ (c = 61 ∧ p + 1 = 4 - ds.length % 4)

theorem core_append (a b : Str) : core (a ++ b) = core a ++ core b := by simp [core]

theorem scan (ign : Bool) (t pre ds : Str) (p : Nat) (hs : Shape ign pre ds p)
    (hp : p < 4 - ds.length % 4) :
    ∃ pre' ds' p', Shape ign pre' ds' p' ∧ p' < 4 - ds'.length % 4 ∧
      (pre ++ t = pre' ∨ ∃ c r, pre ++ t = pre' ++ c :: r ∧ Stops ign ds' p' c) := by
  induction t generalizing pre ds p with
  | nil => exact ⟨pre, ds, p, hs, hp, Or.inl (by simp)⟩
  | cons c t ih =>
    have stop : Stops ign ds p c → ∃ pre' ds' p', Shape ign pre' ds' p' ∧ p' < 4 - ds'.length % 4 ∧
      (pre ++ c :: t = pre' ∨ ∃ c' r, pre ++ c :: t = pre' ++ c' :: r ∧ Stops ign ds' p' c') :=
      fun h => ⟨pre, ds, p, hs, hp, Or.inr ⟨c, t, rfl, h⟩⟩
    have go : ∀ ds' p', Shape ign (pre ++ [c]) ds' p' → p' < 4 - ds'.length % 4 →
      ∃ pre' ds' p', Shape ign pre' ds' p' ∧ p' < 4 - ds'.length % 4 ∧
      (pre ++ c :: t = pre' ∨ ∃ c' r, pre ++ c :: t = pre' ++ c' :: r ∧ Stops ign ds' p' c') := by
      intro ds' p' h1 h2
      have := ih (pre ++ [c]) ds' p' h1 h2
      simpa using this
    obtain ⟨ha, hd, hc⟩ := hs
    by_cases h7 : is7bit c = true
    · by_cases hdig : isDigit c = true
      · by_cases hp0 : p = 0
        · subst hp0
          refine go (ds ++ [c]) 0 ⟨?_, ?_, ?_⟩ (by omega)
          · intro x hx
            simp only [List.mem_append, List.mem_singleton] at hx
            rcases hx with hx | rfl
            · exact ha x hx
            · simp [allowed, hdig]
          · intro x hx
            simp only [List.mem_append, List.mem_singleton] at hx
            rcases hx with hx | rfl
            · exact hd x hx
            · exact hdig
          · rw [core_append, hc]; simp [core, hdig]
        · exact stop (Or.inr (Or.inr (Or.inl ⟨hdig, by omega⟩)))
      · by_cases hpad : isPad c = true
        · have hc61 := pad_eq c hpad
          by_cases hcl : p + 1 = 4 - ds.length % 4
          · exact stop (Or.inr (Or.inr (Or.inr ⟨hc61, hcl⟩)))
          · refine go ds (p + 1) ⟨?_, hd, ?_⟩ (by omega)
            · intro x hx
              simp only [List.mem_append, List.mem_singleton] at hx
              rcases hx with hx | rfl
              · exact ha x hx
              · simp [allowed, hpad]
            · rw [core_append, hc]; subst hc61
              simp [core, hpad, List.replicate_succ']
        · have hcore : core (pre ++ [c]) = ds ++ List.replicate p 61 := by
            rw [core_append, hc]; simp [core, hdig, hpad]
          by_cases hsp : isSpace c = true
          · refine go ds p ⟨?_, hd, hcore⟩ hp
            intro x hx
            simp only [List.mem_append, List.mem_singleton] at hx
            rcases hx with hx | rfl
            · exact ha x hx
            · simp [allowed, hsp]
          · have hj : isJunk c = true := by simp [isJunk, hdig, hsp, hpad]
            cases hign : ign with
            | false => exact stop (Or.inr (Or.inl ⟨h7, hj, hign⟩)) |> (hign ▸ ·)
            | true =>
              rw [← hign]
              refine go ds p ⟨?_, hd, hcore⟩ hp
              intro x hx
              simp only [List.mem_append, List.mem_singleton] at hx
              rcases hx with hx | rfl
              · exact ha x hx
              · simp [allowed, hj, h7, hign]
    · exact stop (Or.inl (by simpa using h7))

/-- Every text: an open beginning, and then the end or a character that stops the scan. -/
theorem scan_text (ign : Bool) (t : Str) :
    ∃ pre ds p, Shape ign pre ds p ∧ p < 4 - ds.length % 4 ∧
      (t = pre ∨ ∃ c r, t = pre ++ c :: r ∧ Stops ign ds p c) := by
  have := scan ign t [] [] 0 ⟨by simp, by simp, by simp [core]⟩ (by simp)
  simpa using this

/-! ### The loops over an allowed beginning -/

theorem isLoop_core (ign : Bool) (pre r : Str) (s : IsState) (h : ∀ c ∈ pre, allowed ign c = true) :
    isLoop ign (pre ++ r) s = isLoop ign (core pre ++ r) s := by
  induction pre generalizing s with
  | nil => rfl
  | cons c pre ih =>
    have ih := fun s => ih s (fun c hc => h c (by simp [hc]))
    have hc := h c (by simp)
    have h7 := allowed_7bit hc
    by_cases hdig : isDigit c = true
    · simp [core, hdig, isLoop_digit, ih]
    · by_cases hpad : isPad c = true
      · cases pad_eq c hpad
        simp [core, hpad, isLoop_pad, ih]
      · by_cases hsp : isSpace c = true
        · simp [core, hdig, hpad, isLoop_space _ _ _ _ hsp, ih]
        · have hj : isJunk c = true := by simp [isJunk, hdig, hsp, hpad]
          have hign : ign = true := by
            simp [allowed, hdig, hsp, hpad] at hc; exact hc.1.1
          simp [core, hdig, hpad, isLoop_junk _ _ _ _ h7 hj, hign]
          simpa [hign, core] using ih s

theorem decLoop_core (ign : Bool) (pre r : Str) (s : DecState) (h : ∀ c ∈ pre, allowed ign c = true) :
    decLoop ign (pre ++ r) s = decLoop ign (core pre ++ r) s := by
  induction pre generalizing s with
  | nil => rfl
  | cons c pre ih =>
    have ih := fun s => ih s (fun c hc => h c (by simp [hc]))
    have hc := h c (by simp)
    have h7 := allowed_7bit hc
    by_cases hk : (isDigit c || isPad c) = true
    · simp only [core, hk, List.filter_cons, if_true, List.cons_append, decLoop]
      split <;> simp_all [core]
    · simp only [Bool.or_eq_true, not_or, Bool.not_eq_true] at hk
      by_cases hsp : isSpace c = true
      · simp [core, hk, decLoop, decStep_space _ _ _ hsp, ih]
      · have hj : isJunk c = true := by simp [isJunk, hsp, hk]
        have hign : ign = true := by
          simp [allowed, hsp, hk] at hc; exact hc.1.1
        simp [core, hk, decLoop, decStep_junk _ _ _ h7 hj, hign]
        simpa [hign, core] using ih s

theorem isLoop_digits (ign : Bool) (ds r : Str) (n : Nat) (hd : ∀ c ∈ ds, isDigit c = true) :
    isLoop ign (ds ++ r) ⟨n % 4, n, false⟩
      = isLoop ign r ⟨(n + ds.length) % 4, n + ds.length, false⟩ := by
  induction ds generalizing n with
  | nil => rfl
  | cons c ds ih =>
    have ih := ih (n + 1) (fun c hc => hd c (by simp [hc]))
    simp only [List.cons_append, isLoop_digit _ _ _ _ (hd c (by simp))]
    have e1 : (if n % 4 + 1 = 4 then 0 else n % 4 + 1) = (n + 1) % 4 := by split <;> omega
    have e2 : n + 1 + ds.length = n + (ds.length + 1) := by omega
    simp only [e1, Bool.false_eq_true, if_false, List.length_cons, ← e2]
    exact ih

theorem isLoop_pads (ign : Bool) (p : Nat) (r : Str) (bn n : Nat) (b : Bool) (h : bn + p < 4) :
    isLoop ign (List.replicate p 61 ++ r) ⟨bn, n, b⟩
      = isLoop ign r ⟨bn + p, n, b || decide (0 < p)⟩ := by
  induction p generalizing bn b with
  | zero => simp
  | succ p ih =>
    simp only [List.replicate_succ, List.cons_append, isLoop_pad]
    rw [if_neg (by show ¬ bn + 1 = 4; omega)]
    have := ih (bn + 1) true (by omega)
    simp only [Bool.true_or] at this
    rw [this]
    simp only [Nat.zero_lt_succ, decide_true, Bool.or_true]
    congr 2
    omega

/-- `IsBase64` over an open beginning. -/
theorem isLoop_shape (ign : Bool) {pre ds : Str} {p : Nat} (hs : Shape ign pre ds p)
    (hp : p < 4 - ds.length % 4) (r : Str) :
    isLoop ign (pre ++ r) ⟨0, 0, false⟩
      = isLoop ign r ⟨ds.length % 4 + p, ds.length, decide (0 < p)⟩ := by
  rw [isLoop_core ign pre r _ hs.1, hs.2.2, List.append_assoc]
  have := isLoop_digits ign ds (List.replicate p 61 ++ r) 0 hs.2.1
  simp only [Nat.zero_mod, Nat.zero_add] at this
  rw [this, isLoop_pads _ _ _ _ _ _ (by omega)]
  simp

/-- Decoder state after an open beginning with digits `ds` and `p` padding characters. -/
structure AfterShape (s : DecState) (ds : Str) (p : Nat) : Prop where
  digits : p = 0 → AfterDigits s ds
  bn : s.byteNumber = ds.length % 4 + p
  padded : s.padded = decide (0 < p)
  written : s.output.length = 3 * (ds.length / 4) +
    (if p = 0 then 0 else if ds.length % 4 = 2 then 2 else if ds.length % 4 = 3 then 3 else 0)

theorem AfterDigits.out_length {s : DecState} {ds : Str} (h : AfterDigits s ds) :
    s.output.length = 3 * (ds.length / 4) := by
  have h1 := congrArg List.length h.txt
  have h2 := h.lt
  have h3 := h.out
  simp only [List.length_append, text_length, List.length_map, h.buf] at h1
  omega

theorem AfterDigits.toShape {s : DecState} {ds : Str} (h : AfterDigits s ds) : AfterShape s ds 0 :=
  ⟨fun _ => h, by simpa using h.length_mod.symm, by simpa using h.np, by simpa using h.out_length⟩

theorem AfterShape.pad (ign : Bool) {s : DecState} {ds : Str} {p : Nat} (h : AfterShape s ds p) :
    ∃ s', decStep ign 61 s = .ok (s', s.byteNumber + 1 == 4) ∧ AfterShape s' ds (p + 1) := by
  rw [decStep_pad]
  by_cases hp : p = 0
  · have hd := h.digits hp
    subst hp
    obtain ⟨ws, e, hl⟩ := padBytes_ok s.byteNumber s.buffer hd.buf
    simp only [hd.np, Bool.false_eq_true, if_false, e, Except.bind]
    refine ⟨_, rfl, ⟨by simp, ?_, by simp, ?_⟩⟩
    · have := h.bn; simp only; omega
    · have hb := hd.length_mod
      simp only [List.length_append, hl, hd.out_length, hb]
      simp
  · have hpd : s.padded = true := by rw [h.padded]; simp; omega
    simp only [hpd, if_true, pure, Except.pure, Except.bind]
    refine ⟨_, rfl, ⟨by simp, ?_, by simp, ?_⟩⟩
    · have := h.bn; simp only; omega
    · have := h.written
      simp only [hp, if_false] at this
      simpa using this

theorem decLoop_pads (ign : Bool) (q : Nat) (r : Str) {s : DecState} {ds : Str} {p : Nat}
    (h : AfterShape s ds p) (hq : p + q < 4 - ds.length % 4) :
    ∃ s', decLoop ign (List.replicate q 61 ++ r) s = decLoop ign r s' ∧ AfterShape s' ds (p + q) := by
  induction q generalizing s p with
  | zero => exact ⟨s, by simp, by simpa using h⟩
  | succ q ih =>
    obtain ⟨s1, e1, h1⟩ := h.pad ign
    obtain ⟨s2, e2, h2⟩ := ih h1 (by omega)
    have hb : (s.byteNumber + 1 == 4) = false := by have := h.bn; simp; omega
    refine ⟨s2, ?_, ?_⟩
    · simp only [List.replicate_succ, List.cons_append, decLoop, e1, hb, e2]
    · have e : p + (q + 1) = p + 1 + q := by omega
      rw [e]; exact h2

/-- `Decode` over an open beginning. -/
theorem decode_shape (ign : Bool) {pre ds : Str} {p : Nat} (hs : Shape ign pre ds p)
    (hp : p < 4 - ds.length % 4) (r : Str) :
    ∃ s', decode ign (pre ++ r) = decLoop ign r s' ∧ AfterShape s' ds p := by
  rw [decode, decLoop_core ign pre r _ hs.1, hs.2.2, List.append_assoc]
  obtain ⟨s1, e1, h1⟩ := decLoop_digits ign ds (List.replicate p 61 ++ r) AfterDigits.start hs.2.1
  simp only [List.nil_append] at h1
  obtain ⟨s2, e2, h2⟩ := decLoop_pads ign p r h1.toShape (by omega)
  exact ⟨s2, by rw [e1, e2], by simpa using h2⟩

/-- Where the scan stops, `IsBase64` decides. -/
theorem isLoop_stop (ign : Bool) (ds : Str) (p : Nat) (c : UInt8) (r : Str) (_hp : p < 4 - ds.length % 4)
    (hst : Stops ign ds p c) :
    isLoop ign (c :: r) ⟨ds.length % 4 + p, ds.length, decide (0 < p)⟩ =
      if is7bit c = false then .error (.ub "negative index into base64bits")
      else if c = 61 then .ok ds.length else .ok 0 := by
  rcases hst with h | ⟨h7, hj, hi⟩ | ⟨hd, h0⟩ | ⟨rfl, hc⟩
  · rw [isLoop_high _ _ _ _ h]; simp [h]
  · rw [isLoop_junk _ _ _ _ h7 hj]
    have : c ≠ 61 := by rintro rfl; revert hj; decide
    simp [hi, h7, this]
  · rw [isLoop_digit _ _ _ _ hd]
    have : c ≠ 61 := by rintro rfl; revert hd; decide
    simp [h0, digit_7bit c hd, this]
  · rw [isLoop_pad, if_pos (by show ds.length % 4 + p + 1 = 4; omega)]
    have : is7bit 61 = true := by decide
    simp [this]

theorem decLoop_stop (ign : Bool) (ds : Str) (p : Nat) (c : UInt8) (r : Str) {s : DecState}
    (h : AfterShape s ds p) (_hp : p < 4 - ds.length % 4) (hst : Stops ign ds p c) :
    (if is7bit c = false then
      (decLoop ign (c :: r) s).outcome = .error (.ub "negative index into base64bits")
     else Throws (decLoop ign (c :: r) s).outcome) ∧
    (decLoop ign (c :: r) s).written.length = 3 * (ds.length / 4) +
      (if p = 0 ∧ c ≠ 61 then 0 else if ds.length % 4 = 2 then 2
        else if ds.length % 4 = 3 then 3 else 0) := by
  have hw := h.written
  rcases hst with hc | ⟨h7, hj, hi⟩ | ⟨hd, h0⟩ | ⟨rfl, hc⟩
  · have h61 : c ≠ 61 := by rintro rfl; revert hc; decide
    simp only [decLoop, decStep_high _ _ _ hc]
    simp [hc, hw, h61]
  · have h61 : c ≠ 61 := by rintro rfl; revert hj; decide
    simp only [decLoop, decStep_junk _ _ _ h7 hj, hi]
    simp [h7, hw, h61, Throws]
  · have h61 : c ≠ 61 := by rintro rfl; revert hd; decide
    have hpd : s.padded = true := by rw [h.padded]; simpa using h0
    simp only [decLoop, decStep_digit_padded _ _ _ hd hpd]
    have h0' : ¬ p = 0 := by omega
    simp [digit_7bit c hd, hw, h61, Throws, h0']
  · obtain ⟨s1, e1, h1⟩ := h.pad ign
    have hb : (s.byteNumber + 1 == 4) = true := by have := h.bn; simp; omega
    have hb1 : s1.byteNumber ≠ 0 := by have := h1.bn; omega
    have h7 : is7bit 61 = true := by decide
    simp only [decLoop, e1, hb, decEnd, hb1]
    simp only [h7, Bool.true_eq_false, if_false, if_true, ne_eq, not_true_eq_false, and_false]
    refine ⟨by simp [Throws, hb1], ?_⟩
    have := h1.written
    simpa [hb1] using this

theorem decLoop_nil (ign : Bool) {s : DecState} {ds : Str} {p : Nat} (h : AfterShape s ds p) :
    (decLoop ign [] s).written = s.output ∧
    (if p = 0 ∧ ds.length % 4 = 0 then
      (decLoop ign [] s).outcome = .ok s.output.length ∧ text s.output = ds
     else Throws (decLoop ign [] s).outcome) := by
  have hb := h.bn
  by_cases h0 : p = 0 ∧ ds.length % 4 = 0
  · have hd := h.digits h0.1
    have e : s.byteNumber = 0 := by omega
    have hbuf : s.buffer = [] := by
      have := hd.buf; rw [e] at this; exact List.length_eq_zero_iff.mp this
    have ht := hd.txt
    rw [hbuf] at ht
    have hr := hd.read
    refine ⟨by simp [decLoop, decEnd, e], ?_⟩
    rw [if_pos h0]
    exact ⟨by simp [decLoop, decEnd, e, hr], by simpa using ht⟩
  · have e : s.byteNumber ≠ 0 := by omega
    refine ⟨by simp [decLoop, decEnd, e], ?_⟩
    rw [if_neg h0]
    simp [decLoop, decEnd, e, Throws]

end Verif.Base64
