import Verif.Diff.Lines

/-!
# What is to be shown of `Diff`, independently of how it works

Of the model only the type of an edit and the hash of a line are used here.
-/

namespace Verif.Diff.Spec

/-- The lines of a text: the pieces between the new lines, one more than there are new lines. -/
def split : Str → List Str
  | [] => [[]]
  | c :: r => if c = 10 then [] :: split r else
      match split r with
      | t :: ts => (c :: t) :: ts
      | [] => [[c]]

/-- A text put together from lines. -/
def join : List Str → Str
  | [] => []
  | [l] => l
  | l :: r => l ++ 10 :: join r

/-- The number of lines of both texts. -/
def size (s0 s1 : Str) : Nat := (split s0).length + (split s1).length

/-- No two different lines of the texts have the same hash. -/
def NoClash (s0 s1 : Str) : Prop :=
  ∀ a ∈ split s0 ++ split s1, ∀ b ∈ split s0 ++ split s1, hashString a = hashString b → a = b

/-- The first line of a given hash. -/
def firstWithHash (ls : List Str) (key : Nat) : Option Str := ls.find? (fun l => hashString l == key)

/-- A line of the greatest hash. -/
def Highest (ls : List Str) (x : Str) : Prop := x ∈ ls ∧ ∀ y ∈ ls, hashString y ≤ hashString x

/-- In each text all lines of the greatest hash are the first line of that hash, counted through both texts. -/
def TopClear (s0 s1 : Str) : Prop :=
  ∀ x, Highest (split s0) x ∨ Highest (split s1) x → firstWithHash (split s0 ++ split s1) (hashString x) = some x

/-- The number of lines (about 715 million) for which the length of an edit script fits `unsigned int`. -/
def Fits (s0 s1 : Str) : Prop := 6 * size s0 s1 + 8 < 2 ^ 32

/-- Enough iterations, for each loop and for the recursion, to come to the end. -/
def Enough (steps : Nat) (s0 s1 : Str) : Prop := 3 * size s0 s1 + 4 ≤ steps

/-- Applying edits to the lines `A` from number `x` on: up to an edit lines are kept, then `inserted` lines of `B` are put in and `deleted`
lines of `A` are left out. -/
def patchFrom (A B : List Str) : Nat → List Edit → List Str
  | x, [] => A.drop x
  | x, e :: es =>
    (A.take e.line0.toNat).drop x ++ (B.drop e.line1.toNat).take e.inserted.toNat ++ patchFrom A B (e.line0 + e.deleted).toNat es

/-- Applying edits to all lines. -/
def patch (A B : List Str) (es : List Edit) : List Str := patchFrom A B 0 es

/-- Every edit is about lines that exist, and about at least one. -/
def InRange (A B : List Str) (es : List Edit) : Prop :=
  ∀ e ∈ es, 0 ≤ e.line0 ∧ 0 ≤ e.deleted ∧ e.line0 + e.deleted ≤ A.length ∧ 0 ≤ e.line1 ∧ 0 ≤ e.inserted ∧ e.line1 + e.inserted ≤ B.length ∧
    0 < e.deleted + e.inserted

/-- The edits come in the order of the lines, and between two of them there is at least one line that is kept. -/
def Ordered (es : List Edit) : Prop :=
  es.Pairwise (fun e f => e.line0 + e.deleted < f.line0 ∧ e.line1 + e.inserted < f.line1)

/-- The lines in none of the ranges, each a first line and a number of lines. -/
def kept (A : List Str) (ranges : List (Int × Int)) : List Str :=
  ((List.range A.length).filter (fun i : Nat => ranges.all (fun r => ! decide (r.1 ≤ (i : Int) ∧ (i : Int) < r.1 + r.2)))).map (fun i => A.getD i [])

/-- The ranges of deleted lines. -/
def deletions (es : List Edit) : List (Int × Int) := es.map (fun e => (e.line0, e.deleted))

/-- The ranges of inserted lines. -/
def insertions (es : List Edit) : List (Int × Int) := es.map (fun e => (e.line1, e.inserted))

/-- The number of deleted and inserted lines. -/
def cost (es : List Edit) : Int := (es.map (fun e => e.deleted + e.inserted)).sum

/-- A script that leads from the lines `A` to the lines `B`. -/
def Leads (A B : List Str) (es : List Edit) : Prop := InRange A B es ∧ Ordered es ∧ patch A B es = B

end Verif.Diff.Spec
