import Verif.Decimal.Lemmas

namespace Verif.Decimal
open Spec Verif.Measurement Verif.Measurement.Spec

theorem isDec_iff (c : UInt8) : isDec c = true ↔ 48 ≤ c ∧ c ≤ 57 := by simp [isDec]

theorem digits_all {s : Str} (h : Digits s) : ∀ c ∈ s, isDec c = true := fun c hc => (isDec_iff c).mpr (h c hc)

theorem takeWhile_digits {s : Str} (h : Digits s) (r : Str) (hr : ∀ c, r.head? = some c → isDec c = false) :
    (s ++ r).takeWhile isDec = s ∧ (s ++ r).dropWhile isDec = r := by
  have hr0 : r.takeWhile isDec = [] ∧ r.dropWhile isDec = r := by
    cases r with
    | nil => exact ⟨rfl, rfl⟩
    | cons c r => have := hr c rfl; simp [this]
  constructor
  · rw [List.takeWhile_append_of_pos (digits_all h), hr0.1, List.append_nil]
  · rw [List.dropWhile_append_of_pos (digits_all h), hr0.2]

theorem mantissaField_digits {s : Str} (h : Digits s) (point digit : Bool) (r : Str) :
    mantissaField point digit (s ++ r) = s ++ mantissaField point (digit || !s.isEmpty) r := by
  induction s generalizing digit with
  | nil => simp
  | cons c s ih =>
    have hc : isDec c = true := (isDec_iff c).mpr (h c (by simp))
    rw [List.cons_append, mantissaField, if_pos hc, ih (fun d hd => h d (by simp [hd]))]
    simp

/-- An exponent is collected completely. -/
theorem mantissaField_exponent {es : Str} {x : Int} (h : Exponent es x) (point : Bool) : mantissaField point true es = es := by
  rcases h with ⟨rfl, -⟩ | ⟨ds, hd, -, ⟨rfl, -⟩ | ⟨rfl, -⟩⟩
  · rfl
  · have := (takeWhile_digits hd [] (by simp)).1
    rw [List.append_nil] at this
    show mantissaField point true (101 :: 43 :: ds) = 101 :: 43 :: ds
    have e : isDec 101 = false := by decide
    simp [mantissaField, e, exponentField, this]
  · have := (takeWhile_digits hd [] (by simp)).1
    rw [List.append_nil] at this
    show mantissaField point true (101 :: 45 :: ds) = 101 :: 45 :: ds
    have e : isDec 101 = false := by decide
    simp [mantissaField, e, exponentField, this]

/-- The text of a fraction as in the notation. -/
def point (fp : Str) : Str := if fp = [] then [] else b!"." ++ fp

theorem mantissaField_all {ip fp es : Str} {x : Int} (hi : ip ≠ []) (h1 : Digits ip) (h2 : Digits fp) (h3 : Exponent es x) :
    mantissaField false false (ip ++ point fp ++ es) = ip ++ point fp ++ es := by
  have hie : (!ip.isEmpty) = true := by cases ip <;> simp_all
  rw [List.append_assoc, mantissaField_digits h1, Bool.false_or, hie]
  congr 1
  rw [point]
  split
  · exact mantissaField_exponent h3 false
  · show mantissaField false true (46 :: (fp ++ es)) = 46 :: (fp ++ es)
    have e : isDec 46 = false := by decide
    simp [mantissaField, e, mantissaField_digits h2, mantissaField_exponent h3]

theorem exponent_head {es : Str} {x : Int} (h : Exponent es x) : ∀ c, es.head? = some c → c = 101 := by
  intro c hc
  rcases h with ⟨rfl, -⟩ | ⟨ds, -, -, ⟨rfl, -⟩ | ⟨rfl, -⟩⟩ <;> simp_all

theorem convert_exponent {es : Str} {x : Int} (h : Exponent es x) (m : ℚ) :
    withExponent m es = some (m * 10 ^ x) := by
  rcases h with ⟨rfl, rfl⟩ | ⟨ds, -, hne, ⟨rfl, rfl⟩ | ⟨rfl, rfl⟩⟩
  · simp [withExponent]
  · show (if ds = [] then none else some (m * 10 ^ (decValue ds : Int))) = _
    rw [if_neg hne, decValue_eq_horner]
  · show (if ds = [] then none else some (m * 10 ^ (-(decValue ds : Int)))) = _
    rw [if_neg hne, decValue_eq_horner]

theorem convertUnsigned_notation {ip fp es : Str} {x : Int} (hi : ip ≠ []) (h1 : Digits ip) (h2 : Digits fp) (h3 : Exponent es x) :
    convertUnsigned (ip ++ point fp ++ es) = some ((horner (ip ++ fp) : ℚ) * 10 ^ (x - fp.length)) := by
  have e101 : isDec 101 = false := by decide
  have e46 : isDec 46 = false := by decide
  have hes : ∀ c, es.head? = some c → isDec c = false := fun c hc => by rw [exponent_head h3 c hc]; exact e101
  have hr : ∀ c, (point fp ++ es).head? = some c → isDec c = false := by
    intro c hc
    rw [point] at hc
    split at hc
    · exact hes c hc
    · have : c = 46 := by simpa using hc.symm
      rw [this]; exact e46
  obtain ⟨a1, a2⟩ := takeWhile_digits h1 (point fp ++ es) hr
  obtain ⟨b1, b2⟩ := takeWhile_digits h2 es hes
  have hfp : afterPoint (point fp ++ es) = (fp, es) := by
    rw [point]
    split
    · next h0 =>
      rw [List.nil_append, h0]
      unfold afterPoint
      split
      · next r => exact absurd (exponent_head h3 46 rfl) (by decide)
      · rfl
    · show ((fp ++ es).takeWhile isDec, (fp ++ es).dropWhile isDec) = _
      rw [b1, b2]
  rw [List.append_assoc, convertUnsigned]
  simp only [a1, a2, hfp]
  have hne : ip ++ fp ≠ [] := by simp [hi]
  rw [if_neg hne, convert_exponent h3, decValue_eq_horner, mul_assoc, ← zpow_add₀ (by norm_num)]
  congr 3
  omega

/-- A number in decimal notation is read as that number. -/
theorem readExact_notation {s : Str} {q : ℚ} (h : Notation s q) : readExact s = q := by
  obtain ⟨neg, ip, fp, es, x, hi, h1, h2, h3, rfl, rfl⟩ := h
  have key : ∀ t, t = ip ++ point fp ++ es → mantissaField false false t = t ∧ convertUnsigned t = some ((horner (ip ++ fp) : ℚ) * 10 ^ (x - fp.length)) := by
    rintro t rfl
    exact ⟨mantissaField_all hi h1 h2 h3, convertUnsigned_notation hi h1 h2 h3⟩
  have hs : (if neg then b!"-" else []) ++ ip ++ (if fp = [] then [] else b!"." ++ fp) ++ es = (if neg then b!"-" else []) ++ (ip ++ point fp ++ es) := by
    simp only [point, List.append_assoc]
  rw [hs]
  obtain ⟨k1, k2⟩ := key _ rfl
  obtain ⟨c, r, hcr⟩ := List.exists_cons_of_ne_nil hi
  have hc : isDec c = true := (isDec_iff c).mpr (h1 c (by simp [hcr]))
  have hhead : ip ++ point fp ++ es = c :: (r ++ point fp ++ es) := by simp [hcr]
  generalize ip ++ point fp ++ es = t at hs k1 k2 hhead
  have hdec : ∀ c : UInt8, isDec c = true → isBlank c = false ∧ c ≠ 43 ∧ c ≠ 45 := by
    intro c hc
    refine ⟨?_, by rintro rfl; exact absurd hc (by decide), by rintro rfl; exact absurd hc (by decide)⟩
    have h := (isDec_iff c).mp hc
    simp only [UInt8.le_iff_toNat_le] at h
    have h48 : (48 : UInt8).toNat = 48 := rfl
    simp only [isBlank, Bool.or_eq_false_iff, Bool.and_eq_false_iff, decide_eq_false_iff_not, UInt8.le_iff_toNat_le, beq_eq_false_iff_ne, ne_eq]
    refine ⟨Or.inr ?_, ?_⟩
    · have : (13 : UInt8).toNat = 13 := rfl
      omega
    · rintro rfl; exact absurd hc (by decide)
  obtain ⟨d1, d2, d3⟩ := hdec c hc
  cases neg with
  | true =>
    have e45 : isBlank 45 = false := by decide
    show readExact (45 :: t) = _
    rw [readExact, List.dropWhile_cons_of_neg (by rw [e45]; decide), field, if_pos (Or.inr rfl), k1, convert, k2]
    rfl
  | false =>
    show readExact t = _
    rw [readExact, hhead, List.dropWhile_cons_of_neg (by rw [d1]; decide), field, if_neg (by simp [d2, d3]), ← hhead, k1]
    have : convert t = convertUnsigned t := by
      rw [hhead]
      unfold convert
      split
      · next h => exact absurd (List.cons.inj h).1 d3
      · next h => exact absurd (List.cons.inj h).1 d2
      · rfl
    rw [this, k2]
    rfl

end Verif.Decimal
