import Verif.Diff.Spec

/-!
# How a report of `Diff` is read

Written from the description in tfDiff.h, with the numbers and the separator the program uses (the documentation says that lines are numbered
from 0 and that the separator is `---`).
-/

namespace Verif.Diff.Spec

/-- A decimal digit. -/
def digit (c : UInt8) : Bool := 48 ≤ c && c ≤ 57

/-- The number at the beginning of a text, and what comes after it. -/
def number (s : Str) : Nat × Str := ((s.takeWhile digit).foldl (fun n c => n * 10 + (c.toNat - 48)) 0, s.dropWhile digit)

/-- A range of lines: `a,b` or only `a`. -/
def range (s : Str) : Nat × Nat × Str :=
  match (number s).2 with
  | [] => ((number s).1, (number s).1, [])
  | c :: r => if c = 44 then ((number s).1, (number r).1, (number r).2) else ((number s).1, (number s).1, c :: r)

/-- A command: a range of lines, a letter, and another range of lines. -/
structure Command where
  first0 : Nat
  last0 : Nat
  letter : UInt8
  first1 : Nat
  last1 : Nat
  deriving DecidableEq

/-- Reading the line of a command. -/
def command (s : Str) : Option Command :=
  match (range s).2.2 with
  | [] => none
  | c :: r => if (range r).2.2 = [] then some ⟨(range s).1, (range s).2.1, c, (range r).1, (range r).2.1⟩ else none

/-- Rebuilding the second text from the lines `A` of the first and the lines of a report: `x` lines of `A` are used up.  The first argument bounds
the number of commands. -/
def rebuild (A : List Str) : Nat → Nat → List Str → Option (List Str)
  | _, x, [] => some (A.drop x)
  | 0, _, _ :: _ => none
  | n + 1, x, h :: r =>
    match command h with
    | none => none
    | some c =>
      if c.letter = 97 then
        -- `LaR`: after line L
        (rebuild A n c.first0 (r.drop (c.last1 + 1 - c.first1))).map
          (fun q => (A.take c.first0).drop x ++ (r.take (c.last1 + 1 - c.first1)).map (fun l => l.drop 2) ++ q)
      else if c.letter = 100 then
        -- `RdL`: without the lines R
        (rebuild A n c.last0 (r.drop (c.last0 + 1 - c.first0))).map (fun q => (A.take (c.first0 - 1)).drop x ++ q)
      else if c.letter = 99 then
        -- `FcT`: without the lines F, then a separator, then the lines of T
        (rebuild A n c.last0 ((r.drop (c.last0 + 1 - c.first0 + 1)).drop (c.last1 + 1 - c.first1))).map
          (fun q => (A.take (c.first0 - 1)).drop x ++ ((r.drop (c.last0 + 1 - c.first0 + 1)).take (c.last1 + 1 - c.first1)).map (fun l => l.drop 2) ++ q)
      else none

/-- The second text from the first and a report: every line of a report ends with a new line. -/
def applyReport (s0 report : Str) : Option Str :=
  (rebuild (split s0) (split report).length 0 (split report).dropLast).map join

end Verif.Diff.Spec
