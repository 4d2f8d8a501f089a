import Verif.Itk.NamesProps
import Verif.Itk.Props

/-!
# C52: what a generated name looks like; C47: boundary pixels
-/

set_option linter.unusedSimpArgs false

namespace Verif.Itk.Spec

/-- The digits, by value. -/
def hexDigits : Str := b!"0123456789abcdef"

/-- `s` is the number `n` in hexadecimal, with small letters and without zeros in front. -/
def Hexadecimal (s : Str) (n : Nat) : Prop :=
  s ≠ [] ∧ (∀ c ∈ s, c ∈ hexDigits) ∧ (1 < s.length → s.head? ≠ some 48) ∧ s.foldl (fun v c => 16 * v + hexDigits.idxOf c) 0 = n

/-- The hash of a text: for each character, rotate left by 7 bits and combine with the character, which is signed. -/
def hashOf (text : Str) : BitVec 16 := text.foldl (fun h c => h.rotateLeft 7 ^^^ c.toBitVec.signExtend 16) 0xfb73#16

end Verif.Itk.Spec

namespace Verif.Itk
open Spec Verif.Path

theorem hexDigit_spec (a : Nat) (h : a < 16) : hexDigit a ∈ hexDigits ∧ hexDigits.idxOf (hexDigit a) = a ∧ (hexDigit a = 48 → a = 0) := by
  revert a; decide +kernel

theorem hexText_numeral (n : Nat) : Hexadecimal (hexText n) n ∧ (0 < n → (hexText n).head? ≠ some 48) := by
  induction n using Nat.strongRecOn with
  | ind n ih =>
    rw [hexText]
    split
    · next h =>
      obtain ⟨a, b, c⟩ := hexDigit_spec n h
      refine ⟨⟨by simp, by simpa using a, by simp, by simpa using b⟩, ?_⟩
      intro hn he
      simp at he
      have := c he
      omega
    · next h =>
      obtain ⟨⟨a1, a2, a3, a4⟩, a5⟩ := ih (n / 16) (by omega)
      obtain ⟨b1, b2, b3⟩ := hexDigit_spec (n % 16) (by omega)
      have a5 := a5 (by omega)
      have hh : (hexText (n / 16) ++ [hexDigit (n % 16)]).head? ≠ some 48 := by
        rcases he : hexText (n / 16) with _ | ⟨x, t⟩
        · exact absurd he a1
        · rw [he] at a5; simpa using a5
      refine ⟨⟨by simp, ?_, fun _ => hh, ?_⟩, fun _ => hh⟩
      · intro c hc
        simp only [List.mem_append, List.mem_singleton] at hc
        rcases hc with hc | rfl
        · exact a2 c hc
        · exact b1
      · rw [List.foldl_append, a4]
        simp only [List.foldl_cons, List.foldl_nil, b2]
        omega

theorem hashStep_spec (h : UInt16) (c : UInt8) : (hashStep h c).toBitVec = h.toBitVec.rotateLeft 7 ^^^ c.toBitVec.signExtend 16 := by
  rw [hashStep]
  simp only [UInt16.toBitVec_xor, UInt16.toBitVec_or, UInt16.toBitVec_shiftLeft, UInt16.toBitVec_shiftRight]
  congr 1

theorem hashArgs_spec (args : List Str) : (hashArgs args).toNat = (hashOf args.flatten).toNat := by
  have hflat : args.foldl (· ++ ·) [] = args.flatten := by
    have : ∀ (l : List Str) (a : Str), l.foldl (· ++ ·) a = a ++ l.flatten := by
      intro l
      induction l with
      | nil => simp
      | cons x l ih => intro a; simp [ih]
    simpa using this args []
  have key : ∀ (t : Str) (h : UInt16), (t.foldl hashStep h).toBitVec = t.foldl (fun h c => h.rotateLeft 7 ^^^ c.toBitVec.signExtend 16) h.toBitVec := by
    intro t
    induction t with
    | nil => intro h; rfl
    | cons c t ih => intro h; rw [List.foldl_cons, ih, hashStep_spec]; rfl
  rw [hashArgs, hflat, hashOf, ← UInt16.toNat_toBitVec, key]
  rfl

/-- **C52.** The name generated: the first argument, the hash of all arguments and the number of names so far, this one included (modulo 2^32), both in
hexadecimal, and the extension; under the root path, if one is given. -/
theorem C52_name (a : Str) (args : List Str) (c : UInt32) (ext root : Str) : ∃ h n : Str, Hexadecimal h (hashOf (a :: args).flatten).toNat ∧
    Hexadecimal n ((c.toNat + 1) % 4294967296) ∧
    Names.generate ⟨a :: args, c⟩ ext root = (⟨a :: args, c + 1⟩, .ok (Path.append root (a ++ b!"_" ++ h ++ b!"_" ++ n ++ b!"." ++ ext))) := by
  refine ⟨hexText (hashArgs (a :: args)).toNat, hexText (c + 1).toNat, ?_, ?_, ?_⟩
  · rw [← hashArgs_spec]; exact (hexText_numeral _).1
  · have : (c + 1).toNat = (c.toNat + 1) % 4294967296 := by rw [UInt32.toNat_add]; rfl
    rw [← this]; exact (hexText_numeral _).1
  · rw [generate_eq]
    simp [stem]

/-- A numeral stands for one number, and a number has one numeral, so the name determines hash and number. -/
theorem hexadecimal_unique (s : Str) (m n : Nat) (h : Hexadecimal s m) (h' : Hexadecimal s n) : m = n := by
  rw [← h.2.2.2, ← h'.2.2.2]

example : Hexadecimal b!"b989" 0xb989 ∧ ¬ Hexadecimal b!"0b" 11 ∧ ¬ Hexadecimal b!"B" 11 ∧ (hashOf b!"t").toNat = 0xb989 := by
  refine ⟨by unfold Hexadecimal; decide +kernel, by unfold Hexadecimal; decide +kernel, by unfold Hexadecimal; decide +kernel, by decide +kernel⟩

/-! ## C47 -/

/-- The neighbourhood leaves the region. -/
theorem onBoundary_iff (r : Nat) : ∀ (reg : Region) (p : Index), Inside reg p → (onBoundary r reg p = false ↔ ∀ q, Near r p q → Inside reg q)
  | [], [], _ => by
    refine ⟨fun _ q hq => ?_, fun _ => rfl⟩
    cases q with
    | nil => trivial
    | cons _ _ => simp [Near] at hq
  | (l, n) :: reg, i :: p, hin => by
    obtain ⟨h1, h2, h3⟩ := hin
    have ih := onBoundary_iff r reg p h3
    have hself := near_self r p
    simp only [onBoundary, Bool.or_eq_false_iff, decide_eq_false_iff_not, ih]
    constructor
    · rintro ⟨hb, hr⟩ q hq
      cases q with
      | nil => simp [Near] at hq
      | cons j q =>
        obtain ⟨hj, hq⟩ := hq
        rw [abs_le] at hj
        refine ⟨by omega, by omega, hr q hq⟩
    · intro h
      refine ⟨?_, ?_⟩
      · have e1 := h ((i - r) :: p) ⟨by simp, hself⟩
        have e2 := h ((i + r) :: p) ⟨by simp, hself⟩
        have := e1.1
        have := e2.2.1
        omega
      · intro q hq
        exact (h (i :: q) ⟨by simp, hq⟩).2.2
  | [], _ :: _, h => by simp [Inside] at h
  | _ :: _, [], h => by simp [Inside] at h

/-- **C47.** With boundary pixels ignored, a pixel counts only if every place within the radius lies in the test image. -/
theorem C47_count_boundary (A : Arith) (threshold : ℚ) (radius : Nat) (T : Threads) (valid test : Image)
    (hT : Covers T valid.region) (hin : test.region.contains valid.region = true) :
    filterCount A { threshold := some threshold, radius := radius, ignoreBoundary := true } T valid test =
      .ok (count valid.region (fun p => (∀ q, Near radius p q → Inside test.region q) ∧ Differs A threshold radius valid test p)) := by
  rw [C47_count_interior A threshold radius T valid test hT hin]
  congr 1
  rw [count, count]
  congr 1
  apply List.filter_congr
  intro p hp
  rw [onBoundary_iff radius test.region p (inside_of_contains _ _ _ hin ((mem_pixels _ _).mp hp))]

/-- A row of four pixels with a difference at an end: with radius 1 and boundary pixels ignored it is not counted. -/
example : ¬ (∀ q, Near 1 [0] q → Inside [(0, 4)] q) ∧ ∀ q, Near 1 [1] q → Inside [(0, 4)] q :=
  ⟨fun h => by have := h [-1] ⟨by decide, trivial⟩; simp [Inside] at this, (onBoundary_iff 1 [(0, 4)] [1] (by simp [Inside])).mp (by decide)⟩

end Verif.Itk
