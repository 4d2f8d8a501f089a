import Verif.Diff.Model
import Verif.CString

/-!
# Model of tfDiff.cpp, the lines of a text, their numbers, the output, and `Diff`

`size_t` is a natural number without bound, except in the hash, where it is kept modulo 2^64; `char` is signed.
-/

namespace Verif.Diff

open Verif.Measurement (intText)

/-- `struct line`, tfDiff.cpp:47-50. -/
structure Line where
  lindex : Nat
  length : Nat
  deriving DecidableEq, Repr

/-- Counting the lines, tfDiff.cpp:365-372. -/
def countLines (s : Str) : Nat := s.foldl (fun n c => if c = 10 then n + 1 else n) 1

/-- A write to `data.lines[j][lnum]`, in an array of `n` lines of which the first ones are written. -/
def putLine (n : Nat) (lines : List Line) (l : Line) : Except Fault (List Line) :=
  if lines.length < n then .ok (lines ++ [l]) else .error (.ub "line out of range")

/-- Building the index, tfDiff.cpp:384-398, from position `i` on; `lnum` is the number of lines written so far. -/
def indexLines (n : Nat) (size : Nat) : Str → Nat → Nat → List Line → Except Fault (List Line)
  | [], _, lindex, lines => putLine n lines ⟨lindex, size - lindex⟩
  | c :: r, i, lindex, lines =>
    if c = 10 then
      match putLine n lines ⟨lindex, i - lindex⟩ with
      | .ok lines => indexLines n size r (i + 1) (i + 1) lines
      | .error f => .error f
    else indexLines n size r (i + 1) lindex lines

/-- All the lines as texts.  The code calls `substr` again each time it needs the text of a line; the model does it once. -/
def substrAll (s : Str) : List Line → Except Fault (List Str)
  | [] => .ok []
  | l :: r => do
    let t ← substr s l.lindex l.length
    let ts ← substrAll s r
    .ok (t :: ts)

/-- The lines of a text, tfDiff.cpp:364-398. -/
def linesOf (s : Str) : Except Fault (List Str) := do
  let ls ← indexLines (countLines s) s.length s 0 0 []
  substrAll s ls

/-- `RotateLeft(value, 7)` for a `size_t` of 64 bits, tfDiff.cpp:71-74. -/
def rotateLeft7 (v : Nat) : Nat := (v * 128 % 2 ^ 64) ||| (v / 2 ^ 57)

/-- A signed `char` converted to `size_t`. -/
def charValue (c : UInt8) : Nat := if c.toNat < 128 then c.toNat else c.toNat + 2 ^ 64 - 256

/-- `hash`, tfDiff.cpp:77-79. -/
def hashStep (h : Nat) (c : UInt8) : Nat := (charValue c + rotateLeft7 h) % 2 ^ 64

/-- `hashString`, tfDiff.cpp:82-87. -/
def hashString (s : Str) : Nat := s.foldl hashStep 0

/-- `multimap<hash_type, size_t>`: pairs of a hash and a line, in the order of the hashes. -/
abbrev HashTable := List (Nat × Nat)

/-- `multimap::insert`: behind the pairs with the same key. -/
def insertHash (h i : Nat) : HashTable → HashTable
  | [] => [(h, i)]
  | p :: r => if h < p.1 then (h, i) :: p :: r else p :: insertHash h i r

/-- Filling the table with the lines from number `i` on, tfDiff.cpp:406-411. -/
def fillTable : List Str → Nat → HashTable → HashTable
  | [], _, t => t
  | s :: r, i, t => fillTable r (i + 1) (insertHash (hashString s) i t)

/-- The inner loop tfDiff.cpp:435-446 from an iterator on: `kept` are the pairs before the iterator that were not erased.  It gives the table
that is left and the lines that get the number.  The iterator is looked at when the table is not empty, even at the end. -/
def walk (key : Nat) (same : Nat → Bool) (kept : HashTable) : HashTable → Except Fault (HashTable × List Nat)
  | [] => if kept = [] then .ok ([], []) else .error (.ub "dereferencing the end of the hash table")
  | (h, i) :: r =>
    if h = key then
      if same i then
        match walk key same kept r with
        | .ok (t, a) => .ok (t, i :: a)
        | .error f => .error f
      else walk key same (kept ++ [(h, i)]) r
    else .ok (kept ++ (h, i) :: r, [])

/-- The writes `data.vec[j][i] = id`, tfDiff.cpp:439, to an array of `n` numbers; none is a number never written. -/
def writeIds (n id : Nat) : List Nat → (Nat → Option Nat) → Except Fault (Nat → Option Nat)
  | [], v => .ok v
  | i :: r, v => if i < n then writeIds n id r (fun k => if k = i then some id else v k) else .error (.ub "line number out of range")

/-- The two tables and the two arrays of line numbers, `false` for the first text. -/
structure Classes where
  hash : Bool → HashTable
  vec : Bool → Nat → Option Nat

/-- One round of the loop tfDiff.cpp:434-448 for the table `j`. -/
def classifyIn (T : Bool → List Str) (key : Nat) (text : Str) (id : Nat) (st : Classes) (j : Bool) : Except Fault Classes := do
  let (t, a) ← walk key (fun i => text = (T j).getD i []) [] (st.hash j)
  let v ← writeIds (T j).length id a (st.vec j)
  .ok ⟨fun k => if k = j then t else st.hash k, fun k => if k = j then v else st.vec k⟩

/-- The table that is looked at, tfDiff.cpp:422-432, with the first pair in it; none if both are empty. -/
def nextClass (st : Classes) : Option (Bool × Nat × Nat) :=
  match st.hash false, st.hash true with
  | [], [] => none
  | [], q :: _ => some (true, q.1, q.2)
  | p :: _, [] => some (false, p.1, p.2)
  | p :: _, q :: _ => if q.1 < p.1 then some (true, q.1, q.2) else some (false, p.1, p.2)

/-- The loop tfDiff.cpp:434-448 over the tables from `hindex` on. -/
def classifyFrom (T : Bool → List Str) (key : Nat) (text : Str) (id : Nat) (st : Classes) : Bool → Except Fault Classes
  | true => classifyIn T key text id st true
  | false =>
    match classifyIn T key text id st false with
    | .ok st => classifyIn T key text id st true
    | .error f => .error f

/-- The loop tfDiff.cpp:418-452; `steps` bounds the number of iterations. -/
def classify (T : Bool → List Str) : Nat → Nat → Classes → Except Fault Classes
  | 0, _, _ => .error .fuel
  | steps + 1, id, st =>
    match nextClass st with
    | none => .ok st
    | some (hindex, key, i) => do
      let text := (T hindex).getD i []
      let st ← classifyFrom T key text id st hindex
      classify T steps (id + 1) st

/-- The line numbers as they are found in the array: an entry never written is indeterminate. -/
def collectIds (v : Nat → Option Nat) : Nat → Nat → Except Fault (List Nat)
  | 0, _ => .ok []
  | n + 1, i =>
    match v i with
    | none => .error (.ub "indeterminate line number")
    | some id => do
      let r ← collectIds v n (i + 1)
      .ok (id :: r)

/-- What `BuildLines` leaves behind: the lines and the line numbers of the two texts. -/
structure Built where
  lines0 : List Str
  lines1 : List Str
  ids0 : List Nat
  ids1 : List Nat

/-- `BuildLines`, tfDiff.cpp:360-454; `steps` bounds the number of iterations. -/
def buildLines (steps : Nat) (s0 s1 : Str) : Except Fault Built := do
  let l0 ← linesOf s0
  let l1 ← linesOf s1
  let T : Bool → List Str := fun j => if j then l1 else l0
  let st ← classify T steps 1 ⟨fun j => fillTable (T j) 0 [], fun _ _ => none⟩
  let v0 ← collectIds (st.vec false) l0.length 0
  let v1 ← collectIds (st.vec true) l1.length 0
  .ok ⟨l0, l1, v0, v1⟩

/-- `PrintLines`, tfDiff.cpp:301-307; `num` lines from number `lnum` on.  A negative number would be a huge `size_t`. -/
def printLines (pre : Str) (lines : List Str) : Nat → Int → Except Fault Str
  | 0, _ => .ok []
  | num + 1, lnum =>
    if 0 ≤ lnum ∧ lnum < lines.length then do
      let r ← printLines pre lines num (lnum + 1)
      .ok (cstr pre ++ cstr (lines.getD lnum.toNat []) ++ b!"\n" ++ r)
    else .error (.ub "line out of range")

/-- A range of lines, tfDiff.cpp:320-323, 325-328, 338-341, 348-351. -/
def rangeText (first num : Int) : Str :=
  if num > 1 then intText (first + 1) ++ b!"," ++ intText (first + num) else intText (first + 1)

/-- One edit, tfDiff.cpp:313-354. -/
def printEdit (lines0 lines1 : List Str) (e : Edit) : Except Fault Str :=
  if e.inserted < 0 ∨ e.deleted < 0 then .error (.ub "line out of range")
  else if e.inserted ≠ 0 ∧ e.deleted ≠ 0 then do
    let a ← printLines b!"< " lines0 e.deleted.toNat e.line0
    let c ← printLines b!"> " lines1 e.inserted.toNat e.line1
    .ok (rangeText e.line0 e.deleted ++ b!"c" ++ rangeText e.line1 e.inserted ++ b!"\n" ++ a ++ b!"----\n" ++ c)
  else if e.inserted ≠ 0 then do
    let c ← printLines b!"> " lines1 e.inserted.toNat e.line1
    .ok (intText e.line0 ++ b!"a" ++ rangeText e.line1 e.inserted ++ b!"\n" ++ c)
  else do
    let a ← printLines b!"< " lines0 e.deleted.toNat e.line0
    .ok (rangeText e.line0 e.deleted ++ b!"d" ++ intText (e.line1 + 1) ++ b!"\n" ++ a)

/-- `PrintEditList`, tfDiff.cpp:310-356. -/
def printEditList (lines0 lines1 : List Str) : List Edit → Except Fault Str
  | [] => .ok []
  | e :: r => do
    let t ← printEdit lines0 lines1 e
    let ts ← printEditList lines0 lines1 r
    .ok (t ++ ts)

/-- What lies in memory outside the two arrays of line numbers (tfDiff.cpp:221, 222, 244): none if such a read is trapped. -/
abbrev Outside := Option ((Int → Nat) × (Int → Nat))

/-- `BuildLines` and the edit list of two texts, tfDiff.cpp:459-492. -/
def diffEdits (out : Outside) (steps : Nat) (s0 s1 : Str) : Except Fault (Built × List Edit) := do
  let d ← buildLines steps s0 s1
  let l ← editList ⟨d.ids0, out.map Prod.fst⟩ ⟨d.ids1, out.map Prod.snd⟩ steps steps
  .ok (d, l)

/-- `Diff`, tfDiff.cpp:459-508: the text written; `steps` bounds all loops and the depth of the recursion. -/
def diff (out : Outside) (steps : Nat) (s0 s1 : Str) : Except Fault Str := do
  let (d, l) ← diffEdits out steps s0 s1
  printEditList d.lines0 d.lines1 l

end Verif.Diff
