import Verif.Numbers.Lemmas
import Verif.Decimal.FormProps
import Verif.Decimal.FormatLemmas

/-!
# What is read as a real number
-/

namespace Verif.Numbers
open Spec Verif.Measurement Verif.Measurement.Spec Verif.Decimal

/-- A number as the stream collects it: like `Real`, but digits may be missing. -/
structure Raw (t : Str) where
  sign : Str
  whole : Str
  point : Str
  frac : Str
  letter : Str
  psign : Str
  pdigits : Str
  rest : Str
  eq : t = sign ++ (whole ++ (point ++ (frac ++ (letter ++ (psign ++ (pdigits ++ rest))))))
  hsign : sign = b!"-" ∨ sign = b!"+" ∨ (sign = [] ∧ ∀ c, t.head? = some c → c ≠ 43 ∧ c ≠ 45)
  hwhole : ∀ c ∈ whole, Digit c
  hfrac : ∀ c ∈ frac, Digit c
  hpoint : point = b!"." ∨ (point = [] ∧ frac = [])
  hp : ∀ c ∈ pdigits, Digit c
  hletter : (letter = [] ∧ psign = [] ∧ pdigits = [] ∧ (∀ c, rest.head? = some c → ¬ Digit c ∧ (whole ++ frac ≠ [] → c ≠ 101 ∧ c ≠ 69) ∧ (point = [] → c ≠ 46))) ∨
    ((letter = b!"e" ∨ letter = b!"E") ∧ whole ++ frac ≠ [] ∧ (∀ c, rest.head? = some c → ¬ Digit c) ∧
      (psign = b!"-" ∨ psign = b!"+" ∨ (psign = [] ∧ ∀ c, (pdigits ++ rest).head? = some c → c ≠ 43 ∧ c ≠ 45)))

theorem notDec {c : UInt8} (h : ¬ Digit c) : isDec c = false := by
  cases hc : isDec c with
  | false => rfl
  | true => exact absurd ((digit_iff c).mp hc) h

theorem split_digits (s : Str) : ∃ ds r, s = ds ++ r ∧ (∀ c ∈ ds, Digit c) ∧ ∀ c, r.head? = some c → ¬ Digit c :=
  ⟨s.takeWhile isDec, s.dropWhile isDec, (List.takeWhile_append_dropWhile ..).symm, fun c hc => (digit_iff c).mp (mem_takeWhile s c hc),
    fun c hc hd => by have := head_dropWhile s c hc; rw [(digit_iff c).mpr hd] at this; cases this⟩

theorem split_sign (s : Str) : ∃ sg r, s = sg ++ r ∧ (sg = b!"-" ∨ sg = b!"+" ∨ (sg = [] ∧ ∀ c, s.head? = some c → c ≠ 43 ∧ c ≠ 45)) := by
  cases s with
  | nil => exact ⟨[], [], rfl, Or.inr (Or.inr ⟨rfl, by simp⟩)⟩
  | cons c r =>
    by_cases h1 : c = 45
    · exact ⟨b!"-", r, by rw [h1]; rfl, Or.inl rfl⟩
    · by_cases h2 : c = 43
      · exact ⟨b!"+", r, by rw [h2]; rfl, Or.inr (Or.inl rfl)⟩
      · refine ⟨[], c :: r, rfl, Or.inr (Or.inr ⟨rfl, ?_⟩)⟩
        intro d hd
        simp only [List.head?_cons, Option.some.injEq] at hd
        rw [← hd]; exact ⟨h2, h1⟩

theorem split_point (s : Str) : ∃ pt r, s = pt ++ r ∧ (pt = b!"." ∨ (pt = [] ∧ ∀ c, r.head? = some c → c ≠ 46)) := by
  cases s with
  | nil => exact ⟨[], [], rfl, Or.inr ⟨rfl, by simp⟩⟩
  | cons c r =>
    by_cases h1 : c = 46
    · exact ⟨b!".", r, by rw [h1]; rfl, Or.inl rfl⟩
    · refine ⟨[], c :: r, rfl, Or.inr ⟨rfl, ?_⟩⟩
      intro d hd
      simp only [List.head?_cons, Option.some.injEq] at hd
      rw [← hd]; exact h1

theorem split_letter (s : Str) : ∃ l r, s = l ++ r ∧ ((l = b!"e" ∨ l = b!"E") ∨ (l = [] ∧ ∀ c, r.head? = some c → c ≠ 101 ∧ c ≠ 69)) := by
  cases s with
  | nil => exact ⟨[], [], rfl, Or.inr ⟨rfl, by simp⟩⟩
  | cons c r =>
    by_cases h1 : c = 101
    · exact ⟨b!"e", r, by rw [h1]; rfl, Or.inl (Or.inl rfl)⟩
    · by_cases h2 : c = 69
      · exact ⟨b!"E", r, by rw [h2]; rfl, Or.inl (Or.inr rfl)⟩
      · refine ⟨[], c :: r, rfl, Or.inr ⟨rfl, ?_⟩⟩
        intro d hd
        simp only [List.head?_cons, Option.some.injEq] at hd
        rw [← hd]; exact ⟨h1, h2⟩

/-- Every text can be split that way. -/
theorem raw_exists (t : Str) : Nonempty (Raw t) := by
  obtain ⟨sign, r1, e1, h1⟩ := split_sign t
  obtain ⟨whole, r2, e2, h2, n2⟩ := split_digits r1
  obtain ⟨point, r3, e3, h3⟩ := split_point r2
  obtain ⟨frac, r4, e4, h4, n4⟩ : ∃ ds r, r3 = ds ++ r ∧ (∀ c ∈ ds, Digit c) ∧ (∀ c, r.head? = some c → ¬ Digit c) := split_digits r3
  have hpf : point = b!"." ∨ (point = [] ∧ frac = []) := by
    rcases h3 with h3 | ⟨h3, -⟩
    · exact Or.inl h3
    · refine Or.inr ⟨h3, ?_⟩
      cases frac with
      | nil => rfl
      | cons c f =>
        rw [h3] at e3
        exact absurd (h4 c (by simp)) (n2 c (by rw [e3, e4]; rfl))
  have hpt : point = [] → ∀ c, r4.head? = some c → c ≠ 46 := by
    intro hp c hc
    rcases h3 with h3 | ⟨-, h3⟩
    · rw [hp] at h3; cases h3
    · rcases hpf with hpf | ⟨-, hpf⟩
      · rw [hp] at hpf; cases hpf
      · exact h3 c (by rw [e4, hpf]; exact hc)
  by_cases hne : whole ++ frac = []
  · exact ⟨⟨sign, whole, point, frac, [], [], [], r4, by simp [e1, e2, e3, e4], h1, h2, h4, hpf, by simp,
      Or.inl ⟨rfl, rfl, rfl, fun c hc => ⟨n4 c hc, fun h => absurd hne h, fun h => hpt h c hc⟩⟩⟩⟩
  · obtain ⟨letter, r5, e5, h5⟩ := split_letter r4
    rcases h5 with h5 | ⟨h5, n5⟩
    · obtain ⟨psign, r6, e6, h6⟩ := split_sign r5
      obtain ⟨ds, rest, e7, h7, n7⟩ := split_digits r6
      refine ⟨⟨sign, whole, point, frac, letter, psign, ds, rest, by simp [e1, e2, e3, e4, e5, e6, e7], h1, h2, h4, hpf, h7, Or.inr ⟨h5, hne, n7, ?_⟩⟩⟩
      rcases h6 with h6 | h6 | ⟨h6, n6⟩
      · exact Or.inl h6
      · exact Or.inr (Or.inl h6)
      · refine Or.inr (Or.inr ⟨h6, fun c hc => n6 c ?_⟩)
        rw [e6, h6, e7]; exact hc
    · rw [h5, List.nil_append] at e5
      subst e5
      exact ⟨⟨sign, whole, point, frac, [], [], [], r4, by simp [e1, e2, e3, e4], h1, h2, h4, hpf, by simp,
        Or.inl ⟨rfl, rfl, rfl, fun c hc => ⟨n4 c hc, fun _ => n5 c hc, fun h => hpt h c hc⟩⟩⟩⟩

theorem digit_ne {c : UInt8} (h : Digit c) : c ≠ 43 ∧ c ≠ 45 ∧ c ≠ 46 ∧ c ≠ 101 ∧ c ≠ 69 := by
  refine ⟨?_, ?_, ?_, ?_, ?_⟩ <;> rintro rfl <;> exact absurd h (by unfold Digit; decide)

variable {t : Str}

/-- The characters of the exponent. -/
def Raw.power (w : Raw t) : Str := w.letter ++ (w.psign ++ w.pdigits)

theorem Raw.power_collected (w : Raw t) (pt : Bool) (hpt : w.point = [] ∨ pt = true) :
    mantissaField pt (!(w.whole ++ w.frac).isEmpty) (w.letter ++ (w.psign ++ (w.pdigits ++ w.rest))) = w.power := by
  rcases w.hletter with ⟨h1, h2, h3, h4⟩ | ⟨h1, h2, h3, h4⟩
  · rw [Raw.power, h1, h2, h3]
    simp only [List.nil_append]
    cases hr : w.rest with
    | nil => rfl
    | cons c r =>
      obtain ⟨a, b, d⟩ := h4 c (by rw [hr]; rfl)
      rw [mantissaField, if_neg (by rw [notDec a]; decide), if_neg, if_neg]
      · rintro ⟨hc, hd⟩
        have : w.whole ++ w.frac ≠ [] := by
          intro h0; rw [h0] at hd; exact absurd hd (by decide)
        rcases hc with hc | hc
        · exact (b this).1 hc
        · exact (b this).2 hc
      · rintro ⟨hc, hd⟩
        rcases hpt with hpt | hpt
        · exact d hpt hc
        · rw [hpt] at hd; exact absurd rfl hd
  · have hd : (!(w.whole ++ w.frac).isEmpty) = true := by
      cases hx : w.whole ++ w.frac with
      | nil => exact absurd hx h2
      | cons a b => rfl
    rw [hd]
    have key : ∀ l : UInt8, l = 101 ∨ l = 69 → mantissaField pt true (l :: (w.psign ++ (w.pdigits ++ w.rest))) = l :: exponentField (w.psign ++ (w.pdigits ++ w.rest)) := by
      intro l hl
      have e1 : isDec l = false := by rcases hl with rfl | rfl <;> decide
      have e2 : l ≠ 46 := by rcases hl with rfl | rfl <;> decide
      rw [mantissaField, if_neg (by rw [e1]; decide), if_neg (fun h => e2 h.1), if_pos ⟨hl, rfl⟩]
    have hex : exponentField (w.psign ++ (w.pdigits ++ w.rest)) = w.psign ++ w.pdigits := by
      have htk := takeWhile_digits w.pdigits w.hp w.rest h3
      rcases h4 with h4 | h4 | ⟨h4, h5⟩
      · rw [h4]; show exponentField (45 :: (w.pdigits ++ w.rest)) = 45 :: w.pdigits
        rw [exponentField, if_pos (Or.inr rfl), htk]
      · rw [h4]; show exponentField (43 :: (w.pdigits ++ w.rest)) = 43 :: w.pdigits
        rw [exponentField, if_pos (Or.inl rfl), htk]
      · rw [h4, List.nil_append, List.nil_append]
        cases hx : w.pdigits ++ w.rest with
        | nil => rw [hx] at htk; rw [← htk]; rfl
        | cons c r =>
          obtain ⟨a, b⟩ := h5 c (by rw [hx]; rfl)
          rw [exponentField, if_neg (by rintro (h | h); exacts [a h, b h]), ← hx, htk]
    rw [Raw.power]
    rcases h1 with h1 | h1 <;> rw [h1]
    · rw [← hex]; exact key 101 (Or.inl rfl)
    · rw [← hex]; exact key 69 (Or.inr rfl)

theorem Raw.mantissa_collected (w : Raw t) :
    mantissaField false false (w.whole ++ (w.point ++ (w.frac ++ (w.letter ++ (w.psign ++ (w.pdigits ++ w.rest)))))) =
      w.whole ++ (w.point ++ (w.frac ++ w.power)) := by
  rw [mantissaField_digits w.hwhole, Bool.false_or]
  congr 1
  rcases w.hpoint with h | ⟨h, h'⟩
  · rw [h]
    show mantissaField false _ (46 :: (w.frac ++ _)) = 46 :: (w.frac ++ w.power)
    rw [mantissaField, if_neg (by decide), if_pos ⟨rfl, by decide⟩, mantissaField_digits w.hfrac, ← w.power_collected true (Or.inr rfl)]
    congr 3
    cases w.whole <;> simp
  · rw [h, h', List.nil_append, List.nil_append, List.nil_append, List.nil_append, ← w.power_collected false (Or.inl h), h', List.append_nil]

theorem Raw.field_eq (w : Raw t) : field t = w.sign ++ (w.whole ++ (w.point ++ (w.frac ++ w.power))) := by
  rw [← w.mantissa_collected]
  have e := w.eq
  generalize w.whole ++ (w.point ++ (w.frac ++ (w.letter ++ (w.psign ++ (w.pdigits ++ w.rest))))) = u at e ⊢
  rcases w.hsign with h | h | ⟨h, hn⟩
  · rw [h] at e ⊢; rw [e]; show field (45 :: u) = 45 :: mantissaField false false u; rw [field, if_pos (Or.inr rfl)]
  · rw [h] at e ⊢; rw [e]; show field (43 :: u) = 43 :: mantissaField false false u; rw [field, if_pos (Or.inl rfl)]
  · rw [h, List.nil_append] at e ⊢
    subst e
    cases t with
    | nil => rfl
    | cons c r =>
      obtain ⟨a, b⟩ := hn c rfl
      rw [field, if_neg (by rintro (h | h); exacts [a h, b h])]

/-- The number, if no digits are missing. -/
def Raw.value (w : Raw t) : Option ℚ :=
  if w.whole ++ w.frac = [] then none
  else if w.letter = [] then some (horner (w.whole ++ w.frac) * 10 ^ (-(w.frac.length : Int)))
  else if w.pdigits = [] then none
  else some (horner (w.whole ++ w.frac) * 10 ^ (-(w.frac.length : Int)) * 10 ^ (if w.psign = b!"-" then -(horner w.pdigits : Int) else horner w.pdigits))

theorem Raw.power_head (w : Raw t) : ∀ c, w.power.head? = some c → c = 101 ∨ c = 69 := by
  intro c hc
  rcases w.hletter with ⟨h1, h2, h3, -⟩ | ⟨h1 | h1, -⟩
  · rw [Raw.power, h1, h2, h3] at hc; cases hc
  · rw [Raw.power, h1] at hc; simp only [List.cons_append, List.head?_cons, Option.some.injEq] at hc; exact Or.inl hc.symm
  · rw [Raw.power, h1] at hc; simp only [List.cons_append, List.head?_cons, Option.some.injEq] at hc; exact Or.inr hc.symm

theorem Raw.withExponent_eq (w : Raw t) (m : ℚ) (hl : w.letter ≠ []) : withExponent m w.power =
    if w.pdigits = [] then none else some (m * 10 ^ (if w.psign = b!"-" then -(horner w.pdigits : Int) else horner w.pdigits)) := by
  rcases w.hletter with ⟨h1, -⟩ | ⟨h1, -, -, h4⟩
  · exact absurd h1 hl
  · have key : ∀ l : UInt8, withExponent m (l :: (w.psign ++ w.pdigits)) =
        if w.pdigits = [] then none else some (m * 10 ^ (if w.psign = b!"-" then -(horner w.pdigits : Int) else horner w.pdigits)) := by
      intro l
      rcases h4 with h4 | h4 | ⟨h4, h5⟩
      · rw [h4]; simp only [List.cons_append, List.nil_append, withExponent, decValue_eq_horner, if_true]
      · rw [h4]
        have : ¬ (b!"+" = b!"-") := by decide
        simp only [List.cons_append, List.nil_append, withExponent, decValue_eq_horner]
        simp
      · rw [h4, List.nil_append]
        have : ¬ ([] = b!"-") := by decide
        cases hx : w.pdigits with
        | nil => rfl
        | cons d ds =>
          obtain ⟨a, b⟩ := h5 d (by rw [hx]; rfl)
          unfold withExponent
          split
          · next h => cases h
          · next h => simp only [List.cons.injEq] at h; exact absurd h.2.1 b
          · next h => simp only [List.cons.injEq] at h; exact absurd h.2.1 a
          · next h =>
            simp only [List.cons.injEq] at h
            rw [← h.2, decValue_eq_horner]
            simp
    rw [Raw.power]
    rcases h1 with h1 | h1 <;> rw [h1]
    · exact key 101
    · exact key 69

theorem Raw.convertUnsigned_eq (w : Raw t) : convertUnsigned (w.whole ++ (w.point ++ (w.frac ++ w.power))) = w.value := by
  have hp : ∀ c, w.power.head? = some c → isDec c = false := fun c hc => by rcases w.power_head c hc with rfl | rfl <;> decide
  have hr : ∀ c, (w.point ++ (w.frac ++ w.power)).head? = some c → isDec c = false := by
    intro c hc
    rcases w.hpoint with h | ⟨h, h'⟩
    · rw [h] at hc; simp only [List.cons_append, List.head?_cons, Option.some.injEq] at hc; rw [← hc]; decide
    · rw [h, h', List.nil_append, List.nil_append] at hc; exact hp c hc
  obtain ⟨a1, a2⟩ := Decimal.takeWhile_digits w.hwhole _ hr
  obtain ⟨b1, b2⟩ := Decimal.takeWhile_digits w.hfrac _ hp
  have hfp : afterPoint (w.point ++ (w.frac ++ w.power)) = (w.frac, w.power) := by
    rcases w.hpoint with h | ⟨h, h'⟩
    · rw [h]; show ((w.frac ++ w.power).takeWhile isDec, (w.frac ++ w.power).dropWhile isDec) = _; rw [b1, b2]
    · rw [h, h', List.nil_append, List.nil_append]
      have := w.power_head
      unfold afterPoint
      split
      · next r hw => rw [hw] at this; rcases this 46 rfl with h | h <;> exact absurd h (by decide)
      · rfl
  rw [convertUnsigned]
  simp only [a1, a2, hfp]
  rw [Raw.value, decValue_eq_horner]
  by_cases h0 : w.whole ++ w.frac = []
  · rw [if_pos h0, if_pos h0]
  · rw [if_neg h0, if_neg h0]
    by_cases hl : w.letter = []
    · rw [if_pos hl]
      rcases w.hletter with ⟨h1, h2, h3, -⟩ | ⟨h1, -⟩
      · rw [Raw.power, h1, h2, h3]; rfl
      · rw [hl] at h1; rcases h1 with h1 | h1 <;> cases h1
    · rw [if_neg hl, w.withExponent_eq _ hl]

/-- The value with the sign. -/
theorem Raw.convert_eq (w : Raw t) : convert (field t) = if w.sign = b!"-" then w.value.map (fun q => -q) else w.value := by
  rw [w.field_eq, ← w.convertUnsigned_eq]
  have hh : w.sign = [] → ∀ c, (w.whole ++ (w.point ++ (w.frac ++ w.power))).head? = some c → c ≠ 43 ∧ c ≠ 45 := by
    intro _ c hc
    cases hx : w.whole with
    | cons d ds =>
      rw [hx] at hc; simp only [List.cons_append, List.head?_cons, Option.some.injEq] at hc
      have := digit_ne (w.hwhole d (by rw [hx]; simp))
      rw [← hc]; exact ⟨this.1, this.2.1⟩
    | nil =>
      rw [hx, List.nil_append] at hc
      rcases w.hpoint with h | ⟨h, h'⟩
      · rw [h] at hc; simp only [List.cons_append, List.head?_cons, Option.some.injEq] at hc
        rw [← hc]; decide
      · rw [h, h', List.nil_append, List.nil_append] at hc
        rcases w.power_head c hc with rfl | rfl <;> decide
  generalize w.whole ++ (w.point ++ (w.frac ++ w.power)) = u at hh ⊢
  rcases w.hsign with h | h | ⟨h, -⟩
  · rw [h]; rfl
  · rw [h]; rfl
  · rw [if_neg (by rw [h]; decide)]
    have := hh h
    rw [h, List.nil_append]
    unfold convert
    split
    · exact absurd rfl (this 45 rfl).2
    · exact absurd rfl (this 43 rfl).1
    · rfl

/-- `Real` without white space, as a split. -/
theorem real_raw {t : Str} {sign whole point frac power rest : Str} {x : Int} (e : t = sign ++ whole ++ point ++ frac ++ power ++ rest)
    (hs : sign = b!"-" ∨ sign = [] ∨ sign = b!"+") (h2 : ∀ c ∈ whole, Digit c) (h3 : ∀ c ∈ frac, Digit c) (h4 : whole ++ frac ≠ [])
    (h5 : point = b!"." ∨ (point = [] ∧ frac = [])) (h6 : Power power x)
    (h7 : ∀ c, rest.head? = some c → ¬ Digit c ∧ (power = [] → c ≠ 101 ∧ c ≠ 69) ∧ (power = [] → point = [] → c ≠ 46)) :
    ∃ w : Raw t, w.sign = sign ∧ w.value = some ((horner (whole ++ frac) : ℚ) * 10 ^ (x - frac.length)) := by
  have hsign : sign = b!"-" ∨ sign = b!"+" ∨ (sign = [] ∧ ∀ c, t.head? = some c → c ≠ 43 ∧ c ≠ 45) := by
    rcases hs with hs | hs | hs
    · exact Or.inl hs
    · refine Or.inr (Or.inr ⟨hs, fun c hc => ?_⟩)
      rw [hs] at e
      cases whole with
      | cons d ds =>
        have hd : d = c := by rw [e] at hc; simpa using hc
        have := digit_ne (h2 d (by simp))
        rw [← hd]; exact ⟨this.1, this.2.1⟩
      | nil =>
        rcases h5 with h5 | ⟨-, h5⟩
        · rw [h5] at e
          have hd : (46 : UInt8) = c := by rw [e] at hc; simpa using hc
          rw [← hd]; decide
        · exact absurd (by rw [h5]; rfl) h4
    · exact Or.inr (Or.inl hs)
  rcases h6 with ⟨rfl, rfl⟩ | ⟨letter, psign, ds, rfl, hl, hne, hd, hv⟩
  · refine ⟨⟨sign, whole, point, frac, [], [], [], rest, by rw [e]; simp, hsign, h2, h3, h5, by simp,
      Or.inl ⟨rfl, rfl, rfl, fun c hc => ⟨(h7 c hc).1, fun _ => (h7 c hc).2.1 rfl, fun hp => (h7 c hc).2.2 rfl hp⟩⟩⟩, rfl, ?_⟩
    simp only [Raw.value]
    rw [if_neg h4, if_true, zero_sub]
  · have hl' : letter ≠ [] := by rintro rfl; rcases hl with h | h <;> cases h
    have hps : psign = b!"-" ∨ psign = b!"+" ∨ (psign = [] ∧ ∀ c, (ds ++ rest).head? = some c → c ≠ 43 ∧ c ≠ 45) := by
      rcases hv with ⟨h, -⟩ | ⟨h | h, -⟩
      · exact Or.inl h
      · refine Or.inr (Or.inr ⟨h, fun c hc => ?_⟩)
        obtain ⟨d, ds', rfl⟩ := List.exists_cons_of_ne_nil hne
        have : d = c := by simpa using hc
        have hdd := digit_ne (hd d (by simp))
        rw [← this]; exact ⟨hdd.1, hdd.2.1⟩
      · exact Or.inr (Or.inl h)
    refine ⟨⟨sign, whole, point, frac, letter, psign, ds, rest, by rw [e]; simp, hsign, h2, h3, h5, hd,
      Or.inr ⟨hl, h4, fun c hc => (h7 c hc).1, hps⟩⟩, rfl, ?_⟩
    simp only [Raw.value]
    rw [if_neg h4, if_neg hl', if_neg hne, mul_assoc, ← zpow_add₀ (by norm_num)]
    congr 3
    rcases hv with ⟨h, rfl⟩ | ⟨h, rfl⟩
    · rw [if_pos h]; omega
    · rw [if_neg (by rcases h with h | h <;> rw [h] <;> decide)]; omega

/-- A text is read as the real number it begins with. -/
theorem convert_iff (s : Str) (q : ℚ) : convert (field (s.dropWhile isBlank)) = some q ↔ Real s q := by
  constructor
  · intro h
    obtain ⟨w⟩ := raw_exists (s.dropWhile isBlank)
    rw [w.convert_eq] at h
    have hv : ∃ m, w.value = some m ∧ q = if w.sign = b!"-" then -m else m := by
      cases hm : w.value with
      | none => rw [hm] at h; split at h <;> cases h
      | some m =>
        refine ⟨m, rfl, ?_⟩
        rw [hm] at h
        split at h <;> simp at h
        · next hs => rw [if_pos hs]; exact h.symm
        · next hs => rw [if_neg hs]; exact h.symm
    obtain ⟨m, hm, hq⟩ := hv
    rw [Raw.value] at hm
    split at hm
    · cases hm
    · next hne =>
      have hsg : (w.sign = b!"-" ∧ q = -m) ∨ ((w.sign = [] ∨ w.sign = b!"+") ∧ q = m) := by
        rcases w.hsign with h | h | ⟨h, -⟩
        · rw [if_pos h] at hq; exact Or.inl ⟨h, hq⟩
        · rw [if_neg (by rw [h]; decide)] at hq; exact Or.inr ⟨Or.inr h, hq⟩
        · rw [if_neg (by rw [h]; decide)] at hq; exact Or.inr ⟨Or.inl h, hq⟩
      have hs : s = s.takeWhile isBlank ++ w.sign ++ w.whole ++ w.point ++ w.frac ++ w.power ++ w.rest := by
        have := w.eq
        rw [Raw.power]
        calc s = s.takeWhile isBlank ++ s.dropWhile isBlank := (List.takeWhile_append_dropWhile ..).symm
          _ = s.takeWhile isBlank ++ (w.sign ++ (w.whole ++ (w.point ++ (w.frac ++ (w.letter ++ (w.psign ++ (w.pdigits ++ w.rest))))))) := by rw [← this]
          _ = _ := by simp only [List.append_assoc]
      have hb : ∀ c ∈ s.takeWhile isBlank, Blank c := fun c hc => (isBlank_iff c).mp (mem_takeWhile _ c hc)
      split at hm
      · next hl =>
        rcases w.hletter with ⟨-, h2, h3, h4⟩ | ⟨h1, -⟩
        · injection hm with hm
          refine ⟨_, _, _, _, _, _, _, 0, m, hs, hb, w.hwhole, w.hfrac, hne, w.hpoint, Or.inl ⟨by rw [Raw.power, hl, h2, h3]; rfl, rfl⟩, ?_, ?_, hsg⟩
          · exact fun c hc => ⟨(h4 c hc).1, fun _ => (h4 c hc).2.1 hne, fun _ => (h4 c hc).2.2⟩
          · rw [← hm, zero_sub]
        · rw [hl] at h1; rcases h1 with h1 | h1 <;> cases h1
      · next hl =>
        split at hm
        · cases hm
        · next hd =>
          injection hm with hm
          rcases w.hletter with ⟨h1, -⟩ | ⟨h1, -, h3, h4⟩
          · exact absurd h1 hl
          · refine ⟨_, _, _, _, _, _, _, (if w.psign = b!"-" then -(horner w.pdigits : Int) else horner w.pdigits), m, hs, hb, w.hwhole, w.hfrac, hne, w.hpoint,
              Or.inr ⟨w.letter, w.psign, w.pdigits, by rw [Raw.power, List.append_assoc], h1, hd, w.hp, ?_⟩, ?_, ?_, hsg⟩
            · rcases h4 with h4 | h4 | ⟨h4, -⟩
              · exact Or.inl ⟨h4, by rw [if_pos h4]⟩
              · exact Or.inr ⟨Or.inr h4, by rw [if_neg (by rw [h4]; decide)]⟩
              · exact Or.inr ⟨Or.inl h4, by rw [if_neg (by rw [h4]; decide)]⟩
            · refine fun c hc => ⟨h3 c hc, fun hp => ?_, fun hp => ?_⟩ <;>
              · rw [Raw.power] at hp
                exact absurd (List.append_eq_nil_iff.mp hp).1 hl
            · rw [← hm, mul_assoc, ← zpow_add₀ (by norm_num)]
              congr 2; omega
  · rintro ⟨blanks, sign, whole, point, frac, power, rest, x, m, hs, hb, h2, h3, h4, h5, h6, h7, hm, hsg⟩
    have hsgn : sign = b!"-" ∨ sign = [] ∨ sign = b!"+" := by
      rcases hsg with ⟨h, -⟩ | ⟨h | h, -⟩ <;> simp [h]
    have hd : s.dropWhile isBlank = sign ++ whole ++ point ++ frac ++ power ++ rest := by
      have e : s = blanks ++ (sign ++ whole ++ point ++ frac ++ power ++ rest) := by rw [hs]; simp
      rw [e]
      refine dropWhile_blanks blanks hb _ fun c hc => ?_
      rcases hsgn with h | h | h
      · rw [h] at hc; have : (45 : UInt8) = c := by simpa using hc
        rw [← this]; decide
      · rw [h] at hc
        cases whole with
        | cons d ds =>
          have : d = c := by simpa using hc
          rw [← this]; exact (digit_facts d ((digit_iff d).mpr (h2 d (by simp)))).1
        | nil =>
          rcases h5 with h5 | ⟨-, h5⟩
          · rw [h5] at hc
            have : (46 : UInt8) = c := by simpa using hc
            rw [← this]; decide
          · exact absurd (by rw [h5]; rfl) h4
      · rw [h] at hc; have : (43 : UInt8) = c := by simpa using hc
        rw [← this]; decide
    obtain ⟨w, w1, w2⟩ := real_raw hd hsgn h2 h3 h4 h5 h6 h7
    rw [w.convert_eq, w1, w2, ← hm]
    rcases hsg with ⟨h, rfl⟩ | ⟨h, rfl⟩
    · rw [if_pos h]; rfl
    · rw [if_neg (by rcases h with h | h <;> rw [h] <;> decide)]

theorem convert_none (s : Str) : convert (field (s.dropWhile isBlank)) = none ↔ ∀ q, ¬ Real s q := by
  constructor
  · intro h q hq
    rw [(convert_iff s q).mpr hq] at h
    cases h
  · intro h
    cases hr : convert (field (s.dropWhile isBlank)) with
    | none => rfl
    | some v => exact absurd ((convert_iff s v).mp hr) (h v)

/-! ## Rounding -/

theorem Format.ulp_bounds (F : Format) {q : ℚ} (hq : 0 < q) :
    F.emin ≤ F.ulpExp q ∧ q < 2 ^ (F.ulpExp q + F.prec) ∧ (F.ulpExp q = F.emin ∨ 2 ^ (F.ulpExp q + F.prec - 1) ≤ q) := by
  obtain ⟨l1, l2⟩ := log2_spec q hq
  refine ⟨by simp only [Format.ulpExp]; omega, lt_of_lt_of_le l2 (zpow_le_zpow_right₀ (by norm_num) (by simp only [Format.ulpExp]; omega)), ?_⟩
  by_cases h : F.ulpExp q = F.emin
  · exact Or.inl h
  · refine Or.inr (le_trans (zpow_le_zpow_right₀ (by norm_num) ?_) l1)
    simp only [Format.ulpExp] at h ⊢; omega

/-- The number nearest to the absolute value, with the sign. -/
def Format.signedNearest (F : Format) (q : ℚ) : ℚ := if q < 0 then -F.nearest |q| else F.nearest |q|

theorem Format.nearest_rounded (F : Format) {q : ℚ} (hq : 0 ≤ q) : RoundedTo F.prec F.emin q (F.nearest q) := by
  rcases hq.eq_or_lt with rfl | hq
  · refine ⟨F.emin, 0, le_rfl, by rw [abs_zero]; exact two_pos _, Or.inl rfl, by rw [F.nearest_zero]; simp, fun j => ?_⟩
    rw [F.nearest_zero]
    exact ⟨by rw [sub_zero, abs_zero]; exact abs_nonneg _, fun h => Or.inr rfl⟩
  · obtain ⟨b1, b2, b3⟩ := Format.ulp_bounds F hq
    rw [F.nearest_pos hq]
    refine ⟨F.ulpExp q, rne (q / 2 ^ F.ulpExp q), b1, by rwa [abs_of_pos hq], by rwa [abs_of_pos hq], rfl, fun j => ?_⟩
    have hs : q = q / 2 ^ F.ulpExp q * 2 ^ F.ulpExp q := by rw [div_mul_cancel₀ _ (two_pos _).ne']
    have hb := rne_best (q / 2 ^ F.ulpExp q) j
    have ht := rne_tie (q / 2 ^ F.ulpExp q) j
    have hpos := two_pos (F.ulpExp q)
    generalize q / 2 ^ F.ulpExp q = y at hs hb ht ⊢
    generalize (2 : ℚ) ^ F.ulpExp q = u at hs hpos ⊢
    rw [hs, ← sub_mul, ← sub_mul, abs_mul, abs_mul]
    exact ⟨mul_le_mul_of_nonneg_right hb (abs_nonneg u), fun h => ht (mul_right_cancel₀ (abs_pos.mpr hpos.ne').ne' h)⟩

theorem roundedTo_neg {p : Nat} {e : Int} {q r : ℚ} (h : RoundedTo p e q r) : RoundedTo p e (-q) (-r) := by
  obtain ⟨u, k, h1, h2, h3, h4, h5⟩ := h
  refine ⟨u, -k, h1, by rwa [abs_neg], by rwa [abs_neg], by rw [h4]; push_cast; ring, fun j => ?_⟩
  have e1 : |-r - -q| = |r - q| := by rw [← abs_neg]; congr 1; ring
  have e2 : |(j : ℚ) * 2 ^ u - -q| = |((-j : Int) : ℚ) * 2 ^ u - q| := by rw [← abs_neg]; congr 1; push_cast; ring
  rw [e1, e2]
  refine ⟨(h5 (-j)).1, fun h => ?_⟩
  rcases (h5 (-j)).2 h with h | h
  · left; omega
  · right; omega

theorem Format.signedNearest_rounded (F : Format) (q : ℚ) : RoundedTo F.prec F.emin q (Format.signedNearest F q) := by
  rw [Format.signedNearest]
  split
  · next h =>
    have := roundedTo_neg (Format.nearest_rounded F (abs_nonneg q))
    rwa [abs_of_neg h, neg_neg, ← abs_of_neg h] at this
  · next h =>
    have := Format.nearest_rounded F (abs_nonneg q)
    rwa [abs_of_nonneg (not_lt.mp h), ← abs_of_nonneg (not_lt.mp h), abs_of_nonneg (not_lt.mp h)] at this ⊢

/-- Rounding has one result. -/
theorem roundedTo_unique {p : Nat} {e : Int} {q r r' : ℚ} (h : RoundedTo p e q r) (h' : RoundedTo p e q r') : r = r' := by
  obtain ⟨u, k, h1, h2, h3, h4, h5⟩ := h
  obtain ⟨u', k', h1', h2', h3', h4', h5'⟩ := h'
  have hu : ∀ u u' : Int, |q| < 2 ^ (u + p) → (u' = e ∨ 2 ^ (u' + p - 1) ≤ |q|) → e ≤ u → u' ≤ u := by
    intro u u' a b c
    rcases b with b | b
    · omega
    · have := (zpow_lt_zpow_iff_right₀ (by norm_num : (1 : ℚ) < 2)).mp (lt_of_le_of_lt b a)
      omega
  have : u = u' := le_antisymm (hu u' u h2' h3 h1') (hu u u' h2 h3' h1)
  subst this
  have a1 := (h5 k').1
  have a2 := (h5' k).1
  rw [← h4'] at a1
  rw [← h4] at a2
  have ha := le_antisymm a1 a2
  rcases (h5 k').2 (by rw [← h4']; exact ha) with h | h
  · rw [h4, h4', h]
  · rcases (h5' k).2 (by rw [← h4]; exact ha.symm) with h' | h'
    · rw [h4, h4', h']
    · have hpos := two_pos u
      by_contra hne
      have hkk : k ≠ k' := by rintro rfl; exact hne (h4.trans h4'.symm)
      have hsum : r + r' = 2 * q := by
        rcases abs_eq_abs.mp ha with h | h
        · exact absurd (by linarith) hne
        · linarith
      obtain ⟨m, hm⟩ : ∃ m : Int, k + k' = 2 * m := ⟨(k + k') / 2, by omega⟩
      have hq : q = m * 2 ^ u := by
        have : ((k + k' : Int) : ℚ) * 2 ^ u = 2 * q := by rw [← hsum, h4, h4']; push_cast; ring
        rw [hm] at this; push_cast at this; linarith
      have c1 := (h5 m).1
      rw [← hq, sub_self, abs_zero] at c1
      have c2 := (h5' m).1
      rw [← hq, sub_self, abs_zero] at c2
      have d1 := abs_eq_zero.mp (le_antisymm c1 (abs_nonneg _))
      have d2 := abs_eq_zero.mp (le_antisymm c2 (abs_nonneg _))
      exact hne (by linarith)

/-- When the rounded number is not larger than the largest of the format. -/
theorem Format.nearest_le_max (F : Format) (hp : 0 < F.prec) (he : F.emin ≤ F.emax) {q : ℚ} (hq : 0 ≤ q) (h : q < (2 ^ F.prec - 1 / 2) * 2 ^ F.emax) :
    F.nearest q ≤ F.max := by
  by_contra hc
  rw [not_le] at hc
  by_cases hm : q ≤ F.max
  · have := F.nearest_mono hp hm
    rw [F.max_representable he] at this
    linarith
  · rw [not_le] at hm
    have h1 : (1 : Nat) ≤ 2 ^ F.prec := Nat.one_le_two_pow
    have hb := F.nearest_best hq (2 ^ F.prec - 1) F.emax (by omega) he
    have e : ((2 ^ F.prec - 1 : Nat) : ℚ) * 2 ^ F.emax = F.max := by rw [Format.max]; push_cast [h1]; rfl
    rw [e, abs_of_neg (by linarith : F.max - q < 0)] at hb
    have hbig : (2 : ℚ) ^ F.prec * 2 ^ F.emax ≤ F.nearest q := by
      obtain ⟨m, x, hm1, hx, hn, hcase⟩ := F.nearest_form hp hq
      by_cases hle : x ≤ F.emax
      · exfalso
        have : Verif.Decimal.Spec.Representable F.prec F.emin F.emax (F.nearest q) := ⟨m, x, hm1, hx, hle, by rw [abs_of_nonneg (F.nearest_nonneg q), hn]⟩
        have := F.representable_le_max this
        rw [abs_of_nonneg (F.nearest_nonneg q)] at this
        linarith
      · rcases hcase with hcase | hcase
        · omega
        · rw [hn]
          have h1 : (2 : ℚ) ^ (F.prec - 1) * 2 ^ (F.emax + 1) ≤ m * 2 ^ x :=
            mul_le_mul (by exact_mod_cast hcase) (zpow_le_zpow_right₀ (by norm_num) (by omega)) (two_pos _).le (by positivity)
          have h2 : (2 : ℚ) ^ (F.prec - 1) * 2 ^ (F.emax + 1) = 2 ^ F.prec * 2 ^ F.emax := by
            rw [zpow_add₀ (by norm_num)]
            have : (2 : ℚ) ^ F.prec = 2 ^ (F.prec - 1) * 2 := by rw [← pow_succ]; congr 1; omega
            rw [this]; ring
          linarith
    have ha := le_abs_self (F.nearest q - q)
    rw [Format.max] at hb
    have := two_pos F.emax
    linarith

theorem double_overflow {q : ℚ} (hq : 0 ≤ q) : double.nearest q ≤ double.max ↔ q < (2 ^ 53 - 1 / 2) * 2 ^ (971 : Int) := by
  constructor
  · intro h
    by_contra hc
    rw [not_lt] at hc
    have h1 := double.nearest_mono (by decide) hc
    have h2 : double.max < double.nearest ((2 ^ 53 - 1 / 2) * 2 ^ (971 : Int)) := by decide +kernel
    linarith
  · exact Format.nearest_le_max double (by decide) (by decide) hq

theorem single_overflow {q : ℚ} (hq : 0 ≤ q) : single.nearest q ≤ single.max ↔ q < (2 ^ 24 - 1 / 2) * 2 ^ (104 : Int) := by
  constructor
  · intro h
    by_contra hc
    rw [not_lt] at hc
    have h1 := single.nearest_mono (by decide) hc
    have h2 : single.max < single.nearest ((2 ^ 24 - 1 / 2) * 2 ^ (104 : Int)) := by decide +kernel
    linarith
  · exact Format.nearest_le_max single (by decide) (by decide) hq

end Verif.Numbers
