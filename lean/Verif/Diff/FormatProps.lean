import Verif.Diff.FormatSpec
import Verif.Diff.Props
import Verif.Measurement.Props

/-!
# The report determines the second text
-/

set_option linter.unusedVariables false
set_option linter.unusedSimpArgs false

namespace Verif.Diff
open Spec
open Verif.Measurement (intText natText natText_spec decValue_eq_horner decValue)

/-- Lines, each with its new line. -/
def unlines : List Str → Str
  | [] => []
  | l :: r => l ++ 10 :: unlines r

theorem unlines_append (a b : List Str) : unlines (a ++ b) = unlines a ++ unlines b := by
  induction a with
  | nil => rfl
  | cons l a ih => simp [unlines, ih]

theorem split_unlines (L : List Str) (h : ∀ l ∈ L, (10 : UInt8) ∉ l) : split (unlines L) = L ++ [[]] := by
  have : unlines L = join (L ++ [[]]) := by
    clear h
    induction L with
    | nil => rfl
    | cons l L ih =>
      rw [unlines, ih]
      cases L with
      | nil => rfl
      | cons m L => rfl
  rw [this]
  exact split_join _ (by simp) (by
    intro l hl
    rcases List.mem_append.mp hl with hl | hl
    · exact h l hl
    · simp at hl; rw [hl]; simp)

theorem number_natText (n : Nat) (r : Str) (h : ∀ c, r.head? = some c → digit c = false) : number (natText n ++ r) = (n, r) := by
  obtain ⟨h1, h2, h3, -⟩ := natText_spec n
  have all : ∀ c ∈ natText n, digit c = true := by
    intro c hc
    have := h2 c hc
    simp [digit, this]
  have tk : (natText n ++ r).takeWhile digit = natText n := by
    rw [List.takeWhile_append_of_pos all]
    cases r with
    | nil => simp
    | cons c r => simp [List.takeWhile_cons, h c rfl]
  have dr : (natText n ++ r).dropWhile digit = r := by
    rw [List.dropWhile_append_of_pos all]
    cases r with
    | nil => simp
    | cons c r => simp [List.dropWhile_cons, h c rfl]
  rw [number, tk, dr]
  congr 1
  have : (natText n).foldl (fun n c => n * 10 + (c.toNat - 48)) 0 = decValue (natText n) := rfl
  rw [this, decValue_eq_horner, h3]

theorem intText_nat (v : Int) (h : 0 ≤ v) : intText v = natText v.toNat := by
  rw [intText, if_neg (by omega)]
  congr 1
  omega

theorem range_one (n : Nat) (r : Str) (h : ∀ c, r.head? = some c → digit c = false ∧ c ≠ 44) : range (natText n ++ r) = (n, n, r) := by
  have e := number_natText n r (fun c hc => (h c hc).1)
  rw [range, e]
  cases r with
  | nil => rfl
  | cons c r => simp only; rw [if_neg (h c rfl).2]

theorem range_two (n m : Nat) (r : Str) (h : ∀ c, r.head? = some c → digit c = false) : range (natText n ++ 44 :: (natText m ++ r)) = (n, m, r) := by
  have e := number_natText n (44 :: (natText m ++ r)) (fun c hc => by simp at hc; rw [← hc]; rfl)
  rw [range, e]
  simp only
  rw [if_pos trivial, number_natText m r h]

theorem range_rangeText (first num : Int) (r : Str) (h0 : 0 ≤ first) (h1 : 1 ≤ num) (h : ∀ c, r.head? = some c → digit c = false ∧ c ≠ 44) :
    range (rangeText first num ++ r) = (first.toNat + 1, (first + num).toNat, r) := by
  rw [rangeText]
  split
  · rw [intText_nat _ (by omega), intText_nat _ (by omega), List.append_assoc, List.append_assoc]
    have := range_two (first + 1).toNat (first + num).toNat r (fun c hc => (h c hc).1)
    rw [show (first + 1).toNat = first.toNat + 1 by omega] at this
    rw [show (first + 1).toNat = first.toNat + 1 by omega]
    exact this
  · rw [intText_nat _ (by omega), range_one _ r h]
    rw [show (first + 1).toNat = first.toNat + 1 by omega, show (first + num).toNat = first.toNat + 1 by omega]

theorem range_intText (v : Int) (r : Str) (h0 : 0 ≤ v) (h : ∀ c, r.head? = some c → digit c = false ∧ c ≠ 44) : range (intText v ++ r) = (v.toNat, v.toNat, r) := by
  rw [intText_nat _ h0, range_one _ r h]

theorem natText_clean (n : Nat) : (10 : UInt8) ∉ natText n := by
  intro h
  have := (natText_spec n).2.1 10 h
  exact absurd this (by decide)

theorem intText_clean (v : Int) : (10 : UInt8) ∉ intText v := by
  rw [intText]
  split
  · intro h
    rcases List.mem_cons.mp h with h | h
    · exact absurd h (by decide)
    · exact natText_clean _ h
  · exact natText_clean _

theorem rangeText_clean (a n : Int) : (10 : UInt8) ∉ rangeText a n := by
  rw [rangeText]
  split
  · simp only [List.mem_append, not_or]
    exact ⟨⟨intText_clean _, by decide⟩, intText_clean _⟩
  · exact intText_clean _

/-- The lines of a range with a mark before each. -/
def marked (pre : Str) (A : List Str) (first num : Int) : List Str := ((A.drop first.toNat).take num.toNat).map (fun l => pre ++ cstr l)

/-- The lines of the report for one edit. -/
def editLines (A B : List Str) (e : Edit) : List Str :=
  if e.inserted ≠ 0 ∧ e.deleted ≠ 0 then
    (rangeText e.line0 e.deleted ++ b!"c" ++ rangeText e.line1 e.inserted) :: (marked b!"< " A e.line0 e.deleted ++ b!"----" :: marked b!"> " B e.line1 e.inserted)
  else if e.inserted ≠ 0 then (intText e.line0 ++ b!"a" ++ rangeText e.line1 e.inserted) :: marked b!"> " B e.line1 e.inserted
  else (rangeText e.line0 e.deleted ++ b!"d" ++ intText (e.line1 + 1)) :: marked b!"< " A e.line0 e.deleted

theorem printLines_eq (pre : Str) (A : List Str) : ∀ (num : Nat) (first : Int), 0 ≤ first → first + num ≤ A.length →
    printLines pre A num first = .ok (unlines (marked (cstr pre) A first num)) := by
  intro num
  induction num with
  | zero => intro first _ _; simp [printLines, marked, unlines]
  | succ n ih =>
    intro first h1 h2
    rw [printLines, if_pos (by omega), ih (first + 1) (by omega) (by omega)]
    simp only [bind, Except.bind, marked, Int.toNat_natCast]
    congr 1
    rw [show (first + 1).toNat = first.toNat + 1 by omega, List.drop_eq_getElem_cons (show first.toNat < A.length by omega), List.take_succ_cons, List.map_cons, unlines]
    rw [getD_in _ _ (show first.toNat < A.length by omega)]
    simp

theorem printEdit_eq (A B : List Str) (e : Edit) (h1 : 0 ≤ e.line0) (h2 : 0 ≤ e.deleted) (h3 : e.line0 + e.deleted ≤ A.length) (h4 : 0 ≤ e.line1)
    (h5 : 0 ≤ e.inserted) (h6 : e.line1 + e.inserted ≤ B.length) : printEdit A B e = .ok (unlines (editLines A B e)) := by
  have ha := printLines_eq b!"< " A e.deleted.toNat e.line0 h1 (by omega)
  have hb := printLines_eq b!"> " B e.inserted.toNat e.line1 h4 (by omega)
  rw [show ((e.deleted.toNat : Nat) : Int) = e.deleted by omega, show cstr b!"< " = b!"< " by decide] at ha
  rw [show ((e.inserted.toNat : Nat) : Int) = e.inserted by omega, show cstr b!"> " = b!"> " by decide] at hb
  rw [printEdit, if_neg (by omega), editLines]
  split
  · rw [ha, hb]
    simp only [bind, Except.bind, unlines, unlines_append]
    congr 1
    simp
  · split
    · rw [hb]
      simp only [bind, Except.bind, unlines]
      congr 1
      simp
    · rw [ha]
      simp only [bind, Except.bind, unlines]
      congr 1
      simp

theorem editLines_pos (A B : List Str) (e : Edit) : 1 ≤ (editLines A B e).length := by
  rw [editLines]
  split
  · simp
  · split <;> simp

/-- The lines of the whole report. -/
def reportLines (A B : List Str) : List Edit → List Str
  | [] => []
  | e :: l => editLines A B e ++ reportLines A B l

theorem printEditList_eq (A B : List Str) : ∀ l, InRange A B l → printEditList A B l = .ok (unlines (reportLines A B l)) := by
  intro l
  induction l with
  | nil => intro _; rfl
  | cons e l ih =>
    intro h
    obtain ⟨h1, h2, h3, h4, h5, h6, h7⟩ := h e (by simp)
    rw [printEditList, printEdit_eq A B e h1 h2 h3 h4 h5 h6, ih (fun f hf => h f (List.mem_cons_of_mem _ hf)), reportLines, unlines_append]
    rfl

theorem marked_clean (pre : Str) (A : List Str) (x n : Int) (hp : (10 : UInt8) ∉ pre) (hA : ∀ l ∈ A, (10 : UInt8) ∉ l) : ∀ l ∈ marked pre A x n, (10 : UInt8) ∉ l := by
  intro l hl
  obtain ⟨m, hm, rfl⟩ := List.mem_map.mp hl
  have := hA m (List.mem_of_mem_drop (List.mem_of_mem_take hm))
  intro hc
  rcases List.mem_append.mp hc with hc | hc
  · exact hp hc
  · exact this ((List.takeWhile_sublist _).subset hc)

theorem editLines_clean (A B : List Str) (e : Edit) (hA : ∀ l ∈ A, (10 : UInt8) ∉ l) (hB : ∀ l ∈ B, (10 : UInt8) ∉ l) : ∀ l ∈ editLines A B e, (10 : UInt8) ∉ l := by
  have mA := marked_clean b!"< " A e.line0 e.deleted (by decide) hA
  have mB := marked_clean b!"> " B e.line1 e.inserted (by decide) hB
  have r0 := rangeText_clean e.line0 e.deleted
  have r1 := rangeText_clean e.line1 e.inserted
  have i0 := intText_clean e.line0
  have i1 := intText_clean (e.line1 + 1)
  intro l hl
  rw [editLines] at hl
  split at hl
  · rcases List.mem_cons.mp hl with rfl | hl
    · simp only [List.mem_append, not_or]; exact ⟨⟨r0, by decide⟩, r1⟩
    · rcases List.mem_append.mp hl with hl | hl
      · exact mA l hl
      · rcases List.mem_cons.mp hl with rfl | hl
        · decide
        · exact mB l hl
  · split at hl
    · rcases List.mem_cons.mp hl with rfl | hl
      · simp only [List.mem_append, not_or]; exact ⟨⟨i0, by decide⟩, r1⟩
      · exact mB l hl
    · rcases List.mem_cons.mp hl with rfl | hl
      · simp only [List.mem_append, not_or]; exact ⟨⟨r0, by decide⟩, i1⟩
      · exact mA l hl

theorem reportLines_clean (A B : List Str) (hA : ∀ l ∈ A, (10 : UInt8) ∉ l) (hB : ∀ l ∈ B, (10 : UInt8) ∉ l) : ∀ es, ∀ l ∈ reportLines A B es, (10 : UInt8) ∉ l := by
  intro es
  induction es with
  | nil => intro l hl; cases hl
  | cons e es ih =>
    intro l hl
    rcases List.mem_append.mp hl with hl | hl
    · exact editLines_clean A B e hA hB l hl
    · exact ih l hl

theorem marked_length (pre : Str) (A : List Str) (x n : Int) (h0 : 0 ≤ x) (h1 : 0 ≤ n) (h2 : x + n ≤ A.length) : (marked pre A x n).length = n.toNat := by
  simp [marked]; omega

theorem marked_strip (p q : UInt8) (A : List Str) (x n : Int) (hA : ∀ l ∈ A, (0 : UInt8) ∉ l) : (marked [p, q] A x n).map (fun l => l.drop 2) = (A.drop x.toNat).take n.toNat := by
  rw [marked, List.map_map]
  conv => rhs; rw [← List.map_id ((A.drop x.toNat).take n.toNat)]
  apply List.map_congr_left
  intro l hl
  have := hA l (List.mem_of_mem_drop (List.mem_of_mem_take hl))
  have e : cstr l = l := by
    clear hl
    induction l with
    | nil => rfl
    | cons c l ih =>
      simp only [List.mem_cons, not_or] at this
      rw [cstr, List.takeWhile_cons, if_pos (by simpa using fun h => this.1 h.symm)]
      exact congrArg (c :: ·) (ih this.2)
  simp [e]

theorem rebuild_report (A B : List Str) (hB : ∀ l ∈ B, (0 : UInt8) ∉ l) : ∀ (l : List Edit) (n x : Nat), InRange A B l → (reportLines A B l).length ≤ n →
    rebuild A n x (reportLines A B l) = some (patchFrom A B x l) := by
  have nd : ∀ c : UInt8, ∀ k, c = 97 ∨ c = 99 ∨ c = 100 → (c :: k : Str).head? = some c → ∀ d, (c :: k : Str).head? = some d → digit d = false ∧ d ≠ 44 := by
    intro c k hc _ d hd
    simp at hd
    subst hd
    rcases hc with rfl | rfl | rfl <;> decide
  intro l
  induction l with
  | nil => intro n x _ _; cases n <;> rfl
  | cons e l ih =>
    intro n x h hn
    obtain ⟨h1, h2, h3, h4, h5, h6, h7⟩ := h e (by simp)
    have hl : InRange A B l := fun f hf => h f (List.mem_cons_of_mem _ hf)
    have ml0 := marked_length b!"< " A e.line0 e.deleted h1 h2 h3
    have ml1 := marked_length b!"> " B e.line1 e.inserted h4 h5 h6
    have ms1 := marked_strip 62 32 B e.line1 e.inserted hB
    rw [reportLines] at hn ⊢
    obtain ⟨n, rfl⟩ : ∃ k, n = k + 1 := by
      refine ⟨n - 1, ?_⟩
      have : 1 ≤ (editLines A B e).length := editLines_pos A B e
      simp at hn; omega
    have hn' : (reportLines A B l).length ≤ n := by
      have : 1 ≤ (editLines A B e).length := editLines_pos A B e
      simp at hn; omega
    rw [patchFrom]
    rw [editLines]
    split
    · next hc =>
      have r1 := range_rangeText e.line1 e.inserted [] h4 (by omega) (by simp)
      have r0 := range_rangeText e.line0 e.deleted (99 :: rangeText e.line1 e.inserted) h1 (by omega) (nd 99 _ (by simp) rfl)
      rw [List.append_nil] at r1
      have cm : command (rangeText e.line0 e.deleted ++ b!"c" ++ rangeText e.line1 e.inserted) =
          some ⟨e.line0.toNat + 1, (e.line0 + e.deleted).toNat, 99, e.line1.toNat + 1, (e.line1 + e.inserted).toNat⟩ := by
        rw [List.append_assoc, List.singleton_append, command, r0]
        simp only [r1, if_true]
      rw [List.cons_append, rebuild, cm]
      simp only
      rw [if_neg (by decide), if_neg (by decide), if_pos trivial]
      rw [show (e.line0 + e.deleted).toNat + 1 - (e.line0.toNat + 1) + 1 = (marked b!"< " A e.line0 e.deleted).length + 1 by omega,
        show (e.line1 + e.inserted).toNat + 1 - (e.line1.toNat + 1) = (marked b!"> " B e.line1 e.inserted).length by omega]
      have dr : (marked b!"< " A e.line0 e.deleted ++ b!"----" :: marked b!"> " B e.line1 e.inserted ++ reportLines A B l).drop ((marked b!"< " A e.line0 e.deleted).length + 1) =
          marked b!"> " B e.line1 e.inserted ++ reportLines A B l := by
        rw [List.append_assoc, List.cons_append, ← List.drop_drop, List.drop_left]
        rfl
      rw [dr, List.drop_left, List.take_left, ih n _ hl hn', ms1]
      simp [Option.map]
    · split
      · next hd hc =>
        have hz : e.deleted = 0 := by omega
        have r1 := range_rangeText e.line1 e.inserted [] h4 (by omega) (by simp)
        have r0 := range_intText e.line0 (97 :: rangeText e.line1 e.inserted) h1 (nd 97 _ (by simp) rfl)
        rw [List.append_nil] at r1
        have cm : command (intText e.line0 ++ b!"a" ++ rangeText e.line1 e.inserted) =
            some ⟨e.line0.toNat, e.line0.toNat, 97, e.line1.toNat + 1, (e.line1 + e.inserted).toNat⟩ := by
          rw [List.append_assoc, List.singleton_append, command, r0]
          simp only [r1, if_true]
        rw [List.cons_append, rebuild, cm]
        simp only
        rw [if_pos trivial, show (e.line1 + e.inserted).toNat + 1 - (e.line1.toNat + 1) = (marked b!"> " B e.line1 e.inserted).length by omega]
        rw [List.drop_left, List.take_left, ih n _ hl hn', ms1, hz]
        simp [Option.map]
      · next hd hc =>
        have hz : e.inserted = 0 := by omega
        have r1 := range_intText (e.line1 + 1) [] (by omega) (by simp)
        have r0 := range_rangeText e.line0 e.deleted (100 :: intText (e.line1 + 1)) h1 (by omega) (nd 100 _ (by simp) rfl)
        rw [List.append_nil] at r1
        have cm : command (rangeText e.line0 e.deleted ++ b!"d" ++ intText (e.line1 + 1)) =
            some ⟨e.line0.toNat + 1, (e.line0 + e.deleted).toNat, 100, (e.line1 + 1).toNat, (e.line1 + 1).toNat⟩ := by
          rw [List.append_assoc, List.singleton_append, command, r0]
          simp only [r1, if_true]
        rw [List.cons_append, rebuild, cm]
        simp only
        rw [if_neg (by decide), if_pos trivial, show (e.line0 + e.deleted).toNat + 1 - (e.line0.toNat + 1) = (marked b!"< " A e.line0 e.deleted).length by omega]
        rw [List.drop_left, ih n _ hl hn', hz]
        simp [Option.map]

/-- **C80.** The report of `Diff`, read by the rules of its documentation, and the first text give the second text, if that contains no NUL. -/
theorem C80_report_rebuilds (out : Outside) (steps : Nat) (s0 s1 : Str) (hf : Fits s0 s1) (t : Str) (h : diff out steps s0 s1 = .ok t) (h0 : (0 : UInt8) ∉ s1) :
    applyReport s0 t = some s1 := by
  obtain ⟨d, l, hd⟩ := diff_ok out steps s0 s1 t h
  obtain ⟨t', e1, e2, -⟩ := diff_eq out steps s0 s1 hf d l hd
  have ho := C14_ordered out steps s0 s1 hf d l hd
  have hp := C12_patch out steps s0 s1 hf d l hd
  rw [printEditList_eq _ _ l ho.1] at e2
  rw [h] at e1
  simp only [Except.ok.injEq] at e1 e2
  have ht : t = unlines (reportLines (split s0) (split s1) l) := by rw [e1, ← e2]
  have hB : ∀ l ∈ split s1, (0 : UInt8) ∉ l := by
    clear h hd ho hp e2 ht hf
    induction s1 with
    | nil => simp [split]
    | cons c r ih =>
      simp only [List.mem_cons, not_or] at h0
      have ih := ih h0.2
      rw [split]
      obtain ⟨t, ts, h⟩ := List.exists_cons_of_ne_nil (split_ne r)
      rw [h] at ih ⊢
      intro l hl
      split at hl
      · rcases List.mem_cons.mp hl with rfl | hl
        · simp
        · exact ih l hl
      · rcases List.mem_cons.mp hl with rfl | hl
        · simp only [List.mem_cons, not_or]; exact ⟨h0.1, ih t (by simp)⟩
        · exact ih l (List.mem_cons_of_mem _ hl)
  rw [applyReport, ht, split_unlines _ (reportLines_clean _ _ (split_clean s0) (split_clean s1) l), List.dropLast_concat]
  rw [rebuild_report (split s0) (split s1) hB l _ 0 ho.1 (by simp)]
  simp only [Option.map_some]
  rw [show patchFrom (split s0) (split s1) 0 l = patch (split s0) (split s1) l from rfl, hp.2]

/-- **C80.** Two texts without NUL that give the same report against a third are equal. -/
theorem C80_report_determines (out out' : Outside) (steps steps' : Nat) (s0 s1 s2 : Str) (hf1 : Fits s0 s1) (hf2 : Fits s0 s2) (h1 : (0 : UInt8) ∉ s1) (h2 : (0 : UInt8) ∉ s2)
    (t : Str) (e1 : diff out steps s0 s1 = .ok t) (e2 : diff out' steps' s0 s2 = .ok t) : s1 = s2 := by
  have a := C80_report_rebuilds out steps s0 s1 hf1 t e1 h1
  have b := C80_report_rebuilds out' steps' s0 s2 hf2 t e2 h2
  rw [a] at b
  exact Option.some.inj b

/-- **C80.** With NUL characters this is false: what follows one in its line is not reported. -/
theorem C80_nul_hidden : ∃ s0 s1 s2 t : Str, s1 ≠ s2 ∧ diff none 100 s0 s1 = .ok t ∧ diff none 100 s0 s2 = .ok t := by
  refine ⟨b!"a\nx\nz", b!"a\nb" ++ 0 :: b!"c\nz", b!"a\nb" ++ 0 :: b!"d\nz", b!"2c2\n< x\n----\n> b\n", by decide, ?_, ?_⟩
  · decide +kernel
  · decide +kernel

/-- A report, and what is read from it. -/
example : diff none 100 b!"one\ntwo\nthree\n" b!"one\n2\nthree\nfour\n" = .ok b!"2c2\n< two\n----\n> 2\n3a4\n> four\n" ∧
    applyReport b!"one\ntwo\nthree\n" b!"2c2\n< two\n----\n> 2\n3a4\n> four\n" = some b!"one\n2\nthree\nfour\n" := by
  constructor
  · decide +kernel
  · decide +kernel

end Verif.Diff
