import Verif.Measurement.Model

/-!
# Model of tfDiff.cpp, the edit list

The arrays of line numbers and the buffer of diagonals are memory with bounds: a read or write outside, or a read of a cell
that was never written, is undefined behaviour.  `ptrdiff_t` is an integer without bound (the program would need 2^62 lines to
overflow it); `unsigned int` is kept modulo 2^32.  Assertions are active, as in a build without `NDEBUG`.
-/

namespace Verif.Diff

/-- `struct edit`, tfDiff.cpp:30-43. -/
structure Edit where
  line0 : Int
  line1 : Int
  inserted : Int
  deleted : Int
  deriving DecidableEq, Repr

/-- `struct partition`, tfDiff.cpp:20-24. -/
structure Part where
  xmid : Int
  ymid : Int
  length : Int
  deriving DecidableEq, Repr

/-- The buffer `data.diagonals`, tfDiff.cpp:60, 471: its size and its cells, none for a cell never written. -/
structure Buf where
  size : Int
  cell : Int → Option Int

/-- Reading `data.diagonals[p]`. -/
def Buf.get (b : Buf) (p : Int) : Except Fault Int :=
  if 0 ≤ p ∧ p < b.size then
    match b.cell p with
    | some v => .ok v
    | none => .error (.ub "indeterminate diagonal")
  else .error (.ub "diagonal out of range")

/-- Writing `data.diagonals[p]`. -/
def Buf.set (b : Buf) (p v : Int) : Except Fault Buf :=
  if 0 ≤ p ∧ p < b.size then .ok { b with cell := fun q => if q = p then some v else b.cell q }
  else .error (.ub "diagonal out of range")

/-- A read of `data.vec[j][i]`, the array of line numbers of a text, tfDiff.cpp:58. -/
def readLine (v : List Nat) (i : Int) : Except Fault Nat :=
  if 0 ≤ i ∧ i < v.length then .ok (v.getD i.toNat 0) else .error (.ub "line number out of range")

/-- `data.vec[0]` or `data.vec[1]`, tfDiff.cpp:58, and what is found in the memory outside the array: `none` if the read is trapped. -/
structure Ids where
  ids : List Nat
  outside : Option (Int → Nat) := none

/-- A read of `data.vec[j][i]` where the code does not look at the bounds first (tfDiff.cpp:221, 222, 244): outside the array it gives what
is found there. -/
def Ids.peek (v : Ids) (i : Int) : Except Fault Nat :=
  if 0 ≤ i ∧ i < v.ids.length then .ok (v.ids.getD i.toNat 0)
  else match v.outside with
    | some f => .ok (f i)
    | none => .error (.ub "line number out of range")

/-- The bounds of the box that is searched: `[xb, xe)` of the first, `[yb, ye)` of the second text. -/
structure Box where
  xb : Int
  xe : Int
  yb : Int
  ye : Int
  deriving DecidableEq, Repr

namespace Box
/-- tfDiff.cpp:99 -/
def dmin (b : Box) : Int := b.xb - b.ye
/-- tfDiff.cpp:100 -/
def dmax (b : Box) : Int := b.xe - b.yb
/-- tfDiff.cpp:101 -/
def fmid (b : Box) : Int := b.xb - b.yb
/-- tfDiff.cpp:103 -/
def bmid (b : Box) : Int := b.xe - b.ye
/-- tfDiff.cpp:109 -/
def odd (b : Box) : Bool := (b.fmid - b.bmid) % 2 ≠ 0
/-- The position of `fdiag[k]` in the buffer, tfDiff.cpp:118. -/
def fpos (b : Box) (k : Int) : Int := - b.dmin + 1 + k
/-- The position of `bdiag[k]` in the buffer, tfDiff.cpp:120. -/
def bpos (b : Box) (k : Int) : Int := (b.dmax - b.dmin + 3) - b.dmin + 1 + k
end Box

/-- The loop tfDiff.cpp:145-146: along equal lines forwards. -/
def snakeForward (X Y : List Nat) (b : Box) (x y : Int) : Except Fault Int :=
  if x < b.xe ∧ y < b.ye then
    match readLine X x, readLine Y y with
    | .ok u, .ok v => if u = v then snakeForward X Y b (x + 1) (y + 1) else .ok x
    | .error f, _ => .error f
    | _, .error f => .error f
  else .ok x
termination_by (b.xe - x).toNat
decreasing_by omega

/-- The loop tfDiff.cpp:176-177: along equal lines backwards. -/
def snakeBackward (X Y : List Nat) (b : Box) (x y : Int) : Except Fault Int :=
  if b.xb < x ∧ b.yb < y then
    match readLine X (x - 1), readLine Y (y - 1) with
    | .ok u, .ok v => if u = v then snakeBackward X Y b (x - 1) (y - 1) else .ok x
    | .error f, _ => .error f
    | _, .error f => .error f
  else .ok x
termination_by (x - b.xb).toNat
decreasing_by omega

/-- What a sweep over the diagonals ends with: the midpoint, or the buffer after the sweep. -/
inductive Swept where
  | found (x y : Int) (buf : Buf)
  | swept (buf : Buf)

/-- The forward sweep, tfDiff.cpp:136-157, from diagonal `k` down. -/
def forwardSweep (X Y : List Nat) (b : Box) (fmin bmin bmax k : Int) (buf : Buf) : Except Fault Swept :=
  if fmin ≤ k then do
    let lo ← buf.get (b.fpos (k - 1))
    let hi ← buf.get (b.fpos (k + 1))
    let x0 := if lo < hi then hi else lo + 1
    let x ← snakeForward X Y b x0 (x0 - k)
    let buf ← buf.set (b.fpos k) x
    if b.odd ∧ bmin ≤ k ∧ k ≤ bmax then
      let z ← buf.get (b.bpos k)
      if z ≤ x then .ok (.found x (x - k) buf) else forwardSweep X Y b fmin bmin bmax (k - 2) buf
    else forwardSweep X Y b fmin bmin bmax (k - 2) buf
  else .ok (.swept buf)
termination_by (k - fmin + 2).toNat
decreasing_by all_goals omega

/-- The backward sweep, tfDiff.cpp:167-188, from diagonal `k` down. -/
def backwardSweep (X Y : List Nat) (b : Box) (bmin fmin fmax k : Int) (buf : Buf) : Except Fault Swept :=
  if bmin ≤ k then do
    let lo ← buf.get (b.bpos (k - 1))
    let hi ← buf.get (b.bpos (k + 1))
    let x0 := if lo ≥ hi then hi - 1 else lo
    let x ← snakeBackward X Y b x0 (x0 - k)
    let buf ← buf.set (b.bpos k) x
    if ¬ b.odd ∧ fmin ≤ k ∧ k ≤ fmax then
      let z ← buf.get (b.fpos k)
      if x ≤ z then .ok (.found x (x - k) buf) else backwardSweep X Y b bmin fmin fmax (k - 2) buf
    else backwardSweep X Y b bmin fmin fmax (k - 2) buf
  else .ok (.swept buf)
termination_by (k - bmin + 2).toNat
decreasing_by all_goals omega

/-- Conversion to `unsigned int`. -/
def toUnsigned (v : Int) : Int := v % 4294967296

/-- A guarded write, as in tfDiff.cpp:132-133, 165-166. -/
def Buf.setIf (b : Buf) (c : Bool) (p v : Int) : Except Fault Buf := if c then b.set p v else .ok b

/-- The loop of `FindEditMidPoint`, tfDiff.cpp:128-202; `steps` bounds the number of iterations. -/
def findLoop (X Y : List Nat) (b : Box) : Nat → Int → Int → Int → Int → Int → Buf → Except Fault (Part × Buf)
  | 0, _, _, _, _, _, _ => .error .fuel
  | steps + 1, length, fmin, fmax, bmin, bmax, buf => do
    let buf ← buf.setIf (fmin ≥ b.dmin) (b.fpos (fmin - 1)) (b.xb - 1)
    let buf ← buf.setIf (fmax ≤ b.dmax) (b.fpos (fmax + 1)) (b.xb - 1)
    match ← forwardSweep X Y b fmin bmin bmax fmax buf with
    | .found x y buf => .ok (⟨x, y, toUnsigned (2 * length - 1)⟩, buf)
    | .swept buf => do
      let fmin := if fmin > b.dmin then fmin - 1 else fmin
      let fmax := if fmax < b.dmax then fmax + 1 else fmax
      let buf ← buf.setIf (bmin ≥ b.dmin) (b.bpos (bmin - 1)) (b.xe + 1)
      let buf ← buf.setIf (bmax ≤ b.dmax) (b.bpos (bmax + 1)) (b.xe + 1)
      match ← backwardSweep X Y b bmin fmin fmax bmax buf with
      | .found x y buf => .ok (⟨x, y, toUnsigned (2 * length)⟩, buf)
      | .swept buf =>
        let fmin := if fmin < b.dmin then fmin + 2 else fmin
        let fmax := if fmax > b.dmax then fmax - 2 else fmax
        let bmin := if bmin > b.dmin then bmin - 1 else bmin + 1
        let bmax := if bmax < b.dmax then bmax + 1 else bmax - 1
        findLoop X Y b steps (length + 1) fmin fmax bmin bmax buf

/-- `FindEditMidPoint`, tfDiff.cpp:95-204. -/
def findEditMidPoint (X Y : List Nat) (b : Box) (steps : Nat) (buf : Buf) : Except Fault (Part × Buf) := do
  let buf ← buf.set (b.fpos b.fmid) b.xb
  let buf ← buf.set (b.bpos b.bmid) b.xe
  findLoop X Y b steps 0 b.fmid b.fmid b.bmid b.bmid buf

/-- The loop tfDiff.cpp:247-248 (and 485-486): back over equal lines; `steps` bounds the number of iterations. -/
def eatBack (X Y : List Nat) (b : Box) : Nat → Int → Int → Except Fault (Int × Int)
  | 0, _, _ => .error .fuel
  | steps + 1, x, y =>
    if x ≠ b.xb ∧ y ≠ b.yb then
      match readLine X (x - 1), readLine Y (y - 1) with
      | .ok u, .ok v => if u = v then eatBack X Y b steps (x - 1) (y - 1) else .ok (x, y)
      | .error f, _ => .error f
      | _, .error f => .error f
    else .ok (x, y)

/-- The loop tfDiff.cpp:253-254 (and 483-484): over equal lines; `steps` bounds the number of iterations. -/
def eatForward (X Y : List Nat) (b : Box) : Nat → Int → Int → Except Fault (Int × Int)
  | 0, _, _ => .error .fuel
  | steps + 1, x, y =>
    if x ≠ b.xe ∧ y ≠ b.ye then
      match readLine X x, readLine Y y with
      | .ok u, .ok v => if u = v then eatForward X Y b steps (x + 1) (y + 1) else .ok (x, y)
      | .error f, _ => .error f
      | _, .error f => .error f
    else .ok (x, y)

/-- Joining the edits of the two halves, tfDiff.cpp:259-272. -/
def joinEdits (l1 l2 : List Edit) : Except Fault (List Edit) :=
  match l1.getLast?, l2 with
  | some e, f :: r =>
    if e.line0 + e.deleted = f.line0 ∧ e.line1 + e.inserted = f.line1 then
      .ok (l1.dropLast ++ { e with inserted := e.inserted + f.inserted, deleted := e.deleted + f.deleted } :: r)
    else .ok (l1 ++ l2)
  | _, _ => .error (.assertFail "!l1.empty() && !l2.empty()")

/-- The assertions at the beginning of `GenerateEditList`, tfDiff.cpp:218, 221-222: all reads come before the tests of the bounds. -/
def checkBox (X Y : Ids) (b : Box) : Except Fault Unit :=
  if b.xe - b.xb ≠ 0 ∨ b.ye - b.yb ≠ 0 then do
    let u ← X.peek b.xb
    let v ← Y.peek b.yb
    if u ≠ v ∨ b.xe - b.xb = 0 ∨ b.ye - b.yb = 0 then do
      let u ← X.peek (b.xe - 1)
      let v ← Y.peek (b.ye - 1)
      if u ≠ v ∨ b.xe - b.xb = 0 ∨ b.ye - b.yb = 0 then .ok () else .error (.assertFail "the box ends with a snake")
    else .error (.assertFail "the box begins with a snake")
  else .error (.assertFail "the box is empty")

/-- `GenerateEditList`, tfDiff.cpp:208-299; `depth` bounds the depth of the recursion, `steps` the iterations of a loop. -/
def generate (X Y : Ids) (steps : Nat) : Nat → Box → Buf → Except Fault (List Edit × Buf)
  | 0, _, _ => .error .fuel
  | depth + 1, b, buf => do
    checkBox X Y b
    if b.xe - b.xb = 0 then .ok ([⟨b.xb, b.yb, b.ye - b.yb, 0⟩], buf)
    else if b.ye - b.yb = 0 then .ok ([⟨b.xb, b.yb, 0, b.xe - b.xb⟩], buf)
    else if b.xe - b.xb > 0 ∧ b.ye - b.yb > 0 then do
      let (part, buf) ← findEditMidPoint X.ids Y.ids b steps buf
      if part.length > 1 then do
        let u ← X.peek (part.xmid - 1)
        let v ← Y.peek (part.ymid - 1)
        if u = v ∧ part.xmid ≠ b.xb ∧ part.ymid ≠ b.yb then do
          let (l2, buf) ← generate X Y steps depth ⟨part.xmid, b.xe, part.ymid, b.ye⟩ buf
          let (x, y) ← eatBack X.ids Y.ids b steps part.xmid part.ymid
          let (l1, buf) ← generate X Y steps depth ⟨b.xb, x, b.yb, y⟩ buf
          let l ← joinEdits l1 l2
          .ok (l, buf)
        else do
          let (l1, buf) ← generate X Y steps depth ⟨b.xb, part.xmid, b.yb, part.ymid⟩ buf
          let (x, y) ← eatForward X.ids Y.ids b steps part.xmid part.ymid
          let (l2, buf) ← generate X Y steps depth ⟨x, b.xe, y, b.ye⟩ buf
          let l ← joinEdits l1 l2
          .ok (l, buf)
      else if part.length = 0 then .error (.assertFail "part.length")
      else if b.ye - b.yb > b.xe - b.xb then do
        let u ← readLine X.ids b.xb
        let v ← readLine Y.ids b.yb
        if u = v then .ok ([⟨b.xe, b.ye - 1, 1, 0⟩], buf) else .ok ([⟨b.xb, b.yb, 1, 0⟩], buf)
      else do
        let u ← readLine X.ids b.xb
        let v ← readLine Y.ids b.yb
        if u = v then .ok ([⟨b.xe - 1, b.yb, 0, 1⟩], buf) else .ok ([⟨b.xb, b.yb, 0, 1⟩], buf)
    else .ok ([], buf)

/-- The part of `Diff` between `BuildLines` and `PrintEditList`, tfDiff.cpp:471-492: the buffer, the common lines at the beginning and at the
end, the edit list. -/
def editList (X Y : Ids) (steps depth : Nat) : Except Fault (List Edit) := do
  let n0 : Int := X.ids.length
  let n1 : Int := Y.ids.length
  let buf : Buf := ⟨(n0 + n1) * 2 + 6, fun _ => none⟩
  let (xb, yb) ← eatForward X.ids Y.ids ⟨0, n0, 0, n1⟩ steps 0 0
  let (xe, ye) ← eatBack X.ids Y.ids ⟨xb, n0, yb, n1⟩ steps n0 n1
  if xb ≠ xe ∨ yb ≠ ye then do
    let (l, _) ← generate X Y steps depth ⟨xb, xe, yb, ye⟩ buf
    .ok l
  else .ok []

end Verif.Diff
