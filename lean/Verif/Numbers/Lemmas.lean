import Verif.Numbers.Spec
import Verif.Measurement.Props

/-!
# What `readInt` reads
-/

namespace Verif.Numbers
open Spec Verif.Measurement Verif.Measurement.Spec

theorem isBlank_iff (c : UInt8) : isBlank c = true ↔ Blank c := by
  simp only [isBlank, Blank, Bool.or_eq_true, Bool.and_eq_true, decide_eq_true_eq, beq_iff_eq]
  exact Or.comm

theorem digit_iff (c : UInt8) : isDec c = true ↔ Digit c := by simp [isDec, Digit]

theorem digit_facts : ∀ c : UInt8, isDec c = true → isBlank c = false ∧ c ≠ 45 ∧ c ≠ 43 :=
  forall_byte (P := fun c => isDec c = true → isBlank c = false ∧ c ≠ 45 ∧ c ≠ 43) (by decide +kernel)

theorem dropWhile_blanks (bs : Str) (h : ∀ c ∈ bs, Blank c) (r : Str) (hr : ∀ c, r.head? = some c → isBlank c = false) :
    (bs ++ r).dropWhile isBlank = r := by
  induction bs with
  | nil =>
    cases r with
    | nil => rfl
    | cons c r => rw [List.nil_append, List.dropWhile_cons, if_neg (by rw [hr c rfl]; decide)]
  | cons b bs ih =>
    rw [List.cons_append, List.dropWhile_cons, if_pos ((isBlank_iff b).mpr (h b (by simp))), ih fun c hc => h c (by simp [hc])]

theorem takeWhile_digits (ds : Str) (h : ∀ c ∈ ds, Digit c) (r : Str) (hr : ∀ c, r.head? = some c → ¬ Digit c) :
    (ds ++ r).takeWhile isDec = ds := by
  induction ds with
  | nil =>
    cases r with
    | nil => rfl
    | cons c r => rw [List.nil_append, List.takeWhile_cons, if_neg (by rw [digit_iff]; exact hr c rfl)]
  | cons b ds ih =>
    rw [List.cons_append, List.takeWhile_cons, if_pos ((digit_iff b).mpr (h b (by simp))), ih fun c hc => h c (by simp [hc])]

/-- The sign and what follows. -/
def signSplit (s : Str) : Bool × Str :=
  match s with
  | 45 :: r => (true, r)
  | 43 :: r => (false, r)
  | _ => (false, s)

theorem readInt_split (s : Str) : readInt s =
    (if (signSplit (s.dropWhile isBlank)).2.takeWhile isDec = [] then none
      else some (if (signSplit (s.dropWhile isBlank)).1 then - (horner ((signSplit (s.dropWhile isBlank)).2.takeWhile isDec) : Int)
        else horner ((signSplit (s.dropWhile isBlank)).2.takeWhile isDec))) := by
  have e : readInt s = (match signSplit (s.dropWhile isBlank) with
    | (neg, t) => if t.takeWhile isDec = [] then none else some (if neg then - (decValue (t.takeWhile isDec) : Int) else decValue (t.takeWhile isDec))) := rfl
  rw [e]
  generalize signSplit (s.dropWhile isBlank) = q
  simp only [decValue_eq_horner]

theorem signSplit_spec (s : Str) : ∃ sign, s = sign ++ (signSplit s).2 ∧
    ((sign = b!"-" ∧ (signSplit s).1 = true) ∨ ((sign = [] ∨ sign = b!"+") ∧ (signSplit s).1 = false)) := by
  unfold signSplit
  split
  · exact ⟨b!"-", rfl, Or.inl ⟨rfl, rfl⟩⟩
  · exact ⟨b!"+", rfl, Or.inr ⟨Or.inr rfl, rfl⟩⟩
  · exact ⟨[], rfl, Or.inr ⟨Or.inl rfl, rfl⟩⟩

theorem mem_takeWhile {p : UInt8 → Bool} : ∀ (s : Str) (c : UInt8), c ∈ s.takeWhile p → p c = true
  | [], _, h => by simp at h
  | a :: s, c, h => by
    rw [List.takeWhile_cons] at h
    split at h
    · next ha =>
      rcases List.mem_cons.mp h with rfl | h
      · exact ha
      · exact mem_takeWhile s c h
    · simp at h

theorem head_dropWhile {p : UInt8 → Bool} : ∀ (s : Str) (c : UInt8), (s.dropWhile p).head? = some c → p c = false
  | [], _, h => by simp at h
  | a :: s, c, h => by
    rw [List.dropWhile_cons] at h
    split at h
    · exact head_dropWhile s c h
    · next ha => simp only [List.head?_cons, Option.some.injEq] at h; rw [← h]; simpa using ha

/-- `readInt` reads the integer a text begins with. -/
theorem readInt_iff (s : Str) (v : Int) : readInt s = some v ↔ Numeral s v := by
  constructor
  · intro h
    rw [readInt_split] at h
    split at h
    · cases h
    · next hne =>
      injection h with h
      obtain ⟨sign, e, hs⟩ := signSplit_spec (s.dropWhile isBlank)
      generalize signSplit (s.dropWhile isBlank) = q at *
      refine ⟨s.takeWhile isBlank, sign, q.2.takeWhile isDec, q.2.dropWhile isDec, ?_, ?_, hne, ?_, ?_, ?_⟩
      · rw [List.append_assoc, List.append_assoc, List.takeWhile_append_dropWhile, ← e, List.takeWhile_append_dropWhile]
      · exact fun c hc => (isBlank_iff c).mp (mem_takeWhile _ c hc)
      · exact fun c hc => (digit_iff c).mp (mem_takeWhile _ c hc)
      · intro c hc hd
        have := head_dropWhile _ c hc
        rw [(digit_iff c).mpr hd] at this
        cases this
      · rcases hs with ⟨h1, h2⟩ | ⟨h1, h2⟩ <;> rw [h2] at h
        · exact Or.inl ⟨h1, by simpa using h.symm⟩
        · exact Or.inr ⟨h1, by simpa using h.symm⟩
  · rintro ⟨bs, sign, ds, rest, rfl, hb, hne, hd, hr, hs⟩
    obtain ⟨d, ds', rfl⟩ := List.exists_cons_of_ne_nil hne
    obtain ⟨f1, f2, f3⟩ := digit_facts d ((digit_iff d).mpr (hd d (by simp)))
    have ht := takeWhile_digits _ hd rest hr
    rw [readInt_split]
    have key : ∀ sg, sg = b!"-" ∨ sg = b!"+" ∨ sg = [] → (bs ++ sg ++ (d :: ds') ++ rest).dropWhile isBlank = sg ++ ((d :: ds') ++ rest) := by
      intro sg hsg
      rw [List.append_assoc, List.append_assoc]
      refine dropWhile_blanks bs hb _ ?_
      intro c hc
      rcases hsg with rfl | rfl | rfl
      · simp only [List.cons_append, List.nil_append, List.head?_cons, Option.some.injEq] at hc; rw [← hc]; decide
      · simp only [List.cons_append, List.nil_append, List.head?_cons, Option.some.injEq] at hc; rw [← hc]; decide
      · simp only [List.cons_append, List.nil_append, List.head?_cons, Option.some.injEq] at hc; rw [← hc]; exact f1
    rcases hs with ⟨rfl, rfl⟩ | ⟨rfl | rfl, rfl⟩
    · rw [key _ (Or.inl rfl)]
      have : signSplit (b!"-" ++ ((d :: ds') ++ rest)) = (true, (d :: ds') ++ rest) := rfl
      rw [this]
      simp only [ht]
      simp
    · rw [key _ (Or.inr (Or.inr rfl))]
      have : signSplit ([] ++ ((d :: ds') ++ rest)) = (false, (d :: ds') ++ rest) := by
        unfold signSplit
        split
        · next h => simp at h; exact absurd h.1 f2
        · next h => simp at h; exact absurd h.1 f3
        · rfl
      rw [this]
      simp only [ht]
      simp
    · rw [key _ (Or.inr (Or.inl rfl))]
      have : signSplit (b!"+" ++ ((d :: ds') ++ rest)) = (false, (d :: ds') ++ rest) := rfl
      rw [this]
      simp only [ht]
      simp

theorem readInt_none (s : Str) : readInt s = none ↔ ∀ v, ¬ Numeral s v := by
  constructor
  · intro h v hv
    rw [(readInt_iff s v).mpr hv] at h
    cases h
  · intro h
    cases hr : readInt s with
    | none => rfl
    | some v => exact absurd ((readInt_iff s v).mp hr) (h v)

end Verif.Numbers
