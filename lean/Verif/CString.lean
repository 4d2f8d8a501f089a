import Verif.Prelude

/-!
# The `std::string` operations the code uses

`find`, `rfind`, `substr` with their C++ meaning: indices, `npos` is `none`.
-/

set_option linter.unusedSimpArgs false

namespace Verif

/-- `std::string::rfind(c, pos)` with `pos = n - 1`: the last occurrence below index `n`. -/
def rfindBelow (c : UInt8) (s : Str) : Nat → Option Nat
  | 0 => none
  | n + 1 => if s[n]? = some c then some n else rfindBelow c s n

/-- `s.rfind(c)`. -/
def rfind (c : UInt8) (s : Str) : Option Nat := rfindBelow c s s.length

/-- The first occurrence of `c` in a list whose first element has index `base`. -/
def findIn (c : UInt8) : Str → Nat → Option Nat
  | [], _ => none
  | x :: xs, base => if x = c then some base else findIn c xs (base + 1)

/-- `s.find(c, pos)`. -/
def find (c : UInt8) (s : Str) (pos : Nat) : Option Nat := findIn c (s.drop pos) pos

/-- `s.substr(pos, n)` for `pos ≤ s.size()` (the only way it is called here; larger `pos` throws). -/
def substr (s : Str) (pos n : Nat) : Except Fault Str :=
  if pos ≤ s.length then .ok ((s.drop pos).take n) else .error (.thrown "std::out_of_range")

/-- `s.c_str()` as the operating system sees it: up to the first NUL. -/
def cstr (s : Str) : Str := s.takeWhile (· ≠ 0)

theorem rfindBelow_eq_none {c : UInt8} {s : Str} : ∀ {n : Nat}, n ≤ s.length →
    (rfindBelow c s n = none ↔ c ∉ s.take n)
  | 0, _ => by simp [rfindBelow]
  | n + 1, h => by
    have ih := rfindBelow_eq_none (c := c) (s := s) (n := n) (by omega)
    have hn : n < s.length := by omega
    rw [rfindBelow, List.take_add_one]
    simp only [List.getElem?_eq_getElem hn, Option.some.injEq]
    split
    · next h => simp [h]
    · next h => rw [ih]; simp only [Option.toList_some, List.mem_append, List.mem_singleton, Ne.symm h, or_false]

theorem rfindBelow_eq_some {c : UInt8} {s : Str} {i : Nat} : ∀ {n : Nat}, n ≤ s.length →
    (rfindBelow c s n = some i ↔ ∃ a b, s.take n = a ++ c :: b ∧ c ∉ b ∧ a.length = i)
  | 0, _ => by simp [rfindBelow]
  | n + 1, h => by
    have ih := rfindBelow_eq_some (c := c) (s := s) (i := i) (n := n) (by omega)
    have hn : n < s.length := by omega
    rw [rfindBelow, List.take_add_one]
    simp only [List.getElem?_eq_getElem hn, Option.some.injEq, Option.toList_some]
    split
    · next hc =>
      constructor
      · rintro h; cases h
        exact ⟨_, [], by rw [hc], by simp, by simp; omega⟩
      · rintro ⟨a, b, e, hb, rfl⟩
        have hl : (s.take n).length = n := by simp; omega
        rcases List.append_eq_append_iff.mp e with ⟨d, h1, h2⟩ | ⟨d, h1, h2⟩
        · cases d with
          | nil => simp at h1; rw [h1]; simp; omega
          | cons x d =>
            simp at h2
        · cases d with
          | nil => simp at h1; rw [← h1]; simp; omega
          | cons x d =>
            simp at h2
            exact absurd (by rw [h2.2]; simp [hc]) hb
    · next hc =>
      rw [ih]
      constructor
      · rintro ⟨a, b, e, hb, rfl⟩
        exact ⟨a, b ++ [s[n]], by rw [e]; simp, by simp [hb, Ne.symm hc], rfl⟩
      · rintro ⟨a, b, e, hb, rfl⟩
        rcases List.eq_nil_or_concat b with rfl | ⟨b', x, rfl⟩
        · have := List.append_inj_right' e (by simp)
          simp at this; exact absurd this hc
        · have h1 : s.take n ++ [s[n]] = (a ++ c :: b') ++ [x] := by rw [e]; simp
          have := List.append_inj_left' h1 (by simp)
          exact ⟨a, b', this, by intro hm; exact hb (by simp [hm]), rfl⟩

theorem rfind_eq_none {c : UInt8} {s : Str} : rfind c s = none ↔ c ∉ s := by
  rw [rfind, rfindBelow_eq_none (Nat.le_refl _)]; simp

/-- `rfind` splits the string at the last occurrence. -/
theorem rfind_eq_some {c : UInt8} {s : Str} {i : Nat} :
    rfind c s = some i ↔ ∃ a b, s = a ++ c :: b ∧ c ∉ b ∧ a.length = i := by
  rw [rfind, rfindBelow_eq_some (Nat.le_refl _)]; simp

theorem findIn_eq_none {c : UInt8} : ∀ {s : Str} {base : Nat}, findIn c s base = none ↔ c ∉ s
  | [], _ => by simp [findIn]
  | x :: xs, base => by
    rw [findIn]
    split
    · next h => simp [h]
    · next h => rw [findIn_eq_none]; simp [Ne.symm h]

theorem findIn_eq_some {c : UInt8} : ∀ {s : Str} {base i : Nat},
    findIn c s base = some i ↔ ∃ a b, s = a ++ c :: b ∧ c ∉ a ∧ base + a.length = i
  | [], _, _ => by simp [findIn]
  | x :: xs, base, i => by
    rw [findIn]
    split
    · next h =>
      constructor
      · intro h'; cases h'; exact ⟨[], xs, by simp [h], by simp, by simp⟩
      · rintro ⟨a, b, e, ha, rfl⟩
        cases a with
        | nil => simp
        | cons y a => simp at e; exact absurd (by simp [← e.1, h]) ha
    · next h =>
      rw [findIn_eq_some]
      constructor
      · rintro ⟨a, b, rfl, ha, rfl⟩
        exact ⟨x :: a, b, by simp, by simp [ha, Ne.symm h], by simp; omega⟩
      · rintro ⟨a, b, e, ha, rfl⟩
        cases a with
        | nil => simp at e; exact absurd e.1 h
        | cons y a =>
          simp at e ha
          exact ⟨a, b, e.2, ha.2, by simp; omega⟩

end Verif
