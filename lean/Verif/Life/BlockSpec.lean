import Verif.Life.BlockModel

/-!
# What calls on measurements compute, without memory

The same calls on plain values, by the functions of `Verif/Measurement/Model.lean`.
-/

namespace Verif.Life.Spec
open Verif.Measurement Verif.Life

/-- The values of measurements; a place is `none` when its measurement was destroyed. -/
abbrev Values := List (Option Meas)

/-- The value at a place. -/
def Values.get (l : Values) (i : Nat) : Option Meas := l[i]?.join

/-- A value without cached data, as after construction. -/
def bare : Meas → Meas
  | .data d => .data { d with data := none }
  | .file f => .file f

/-- The value after an assignment between objects of one class. -/
def assigned : Meas → Meas → Meas
  | .data s, .data t => if s.kind = t.kind then .data (s.assign t) else .data s
  | .file _, .file g => .file g
  | x, _ => x

/-- The value after `SetContent`. -/
def withContent (c : Str) : Meas → Meas
  | .data d => .data (d.setContent c)
  | .file f => .file { f with fileName := c }

/-- The value after a call of data measurements only. -/
def onData (f : DataM → DataM) : Meas → Meas
  | .data d => .data (f d)
  | .file g => .file g

/-- `x.SetContentAsData(y.GetContentAsData(), y.GetContentAsDataSize())`. -/
def Values.transfer (l : Values) (i j : Nat) : Values × Answer :=
  match l.get i, l.get j with
  | some (.data x), some (.data y) =>
    match y.getData with
    | (y, .error f) => (l.set j (some (.data y)), .error f)
    | (y, .ok cells) =>
      let r := (if i = j then y else x).setData (bytesOf cells)
      ((l.set j (some (.data y))).set i (some (.data r.1)), r.2.map fun _ => none)
  | _, _ => (l, .ok none)

/-- One call. -/
def Values.step (l : Values) : Op → Values × Answer
  | .new m => (l ++ [some (bare m)], .ok none)
  | .copy i =>
    match l.get i with
    | some m => (l ++ [some (bare m)], .ok none)
    | none => (l, .ok none)
  | .assign i j =>
    match l.get i, l.get j with
    | some x, some y => (l.set i (some (assigned x y)), .ok none)
    | _, _ => (l, .ok none)
  | .setName i n =>
    match l.get i with
    | some m => (l.set i (some (m.setName n)), .ok none)
    | none => (l, .ok none)
  | .setContent i c =>
    match l.get i with
    | some m => (l.set i (some (withContent c m)), .ok none)
    | none => (l, .ok none)
  | .setEncoding i e =>
    match l.get i with
    | some m => (l.set i (some (onData (·.setEncoding e) m)), .ok none)
    | none => (l, .ok none)
  | .setCompression i c =>
    match l.get i with
    | some m => (l.set i (some (onData (·.setCompression c) m)), .ok none)
    | none => (l, .ok none)
  | .read i =>
    match l.get i with
    | some (.data d) => (l.set i (some (.data d.getData.1)), d.getData.2.map fun _ => none)
    | _ => (l, .ok none)
  | .write i bytes =>
    match l.get i with
    | some (.data d) => (l.set i (some (.data (d.setData bytes).1)), (d.setData bytes).2.map fun _ => none)
    | _ => (l, .ok none)
  | .transfer i j => l.transfer i j
  | .compare files i j =>
    match l.get i, l.get j with
    | some x, some y => ((l.set j (some (x.isEqual files y).2.1)).set i (some (x.isEqual files y).1), (x.isEqual files y).2.2.map some)
    | _, _ => (l, .ok none)
  | .destroy i => (l.set i none, .ok none)

/-- A program. -/
def Values.run (l : Values) : List Op → Values
  | [] => l
  | op :: ops => (l.step op).1.run ops

/-- The values after a program. -/
def values (ops : List Op) : Values := Values.run [] ops

/-- What happened on the heap in a program. -/
def memory (ops : List Op) : List Ev := (Pool.run {} ops).heap.log

/-- The block the pointer returned by `GetContentAsData` points to, when it does not point to the content. -/
def blockAt (ops : List Op) (i : Nat) : Option Nat :=
  match (Pool.run {} ops).get i with
  | some (.data s) => s.block
  | _ => none

/-- The call gives `SetContentAsData` the pointer to the measurement's own data, and this is not the content. -/
def TakesOwn (l : Values) (op : Op) : Prop :=
  ∃ i d d' cells, op = .transfer i i ∧ l.get i = some (.data d) ∧ d.getData = (d', .ok cells) ∧ d'.data.isSome = true

/-- No call of the program does that. -/
def Proper (ops : List Op) : Prop := ∀ before op after, ops = before ++ op :: after → ¬ TakesOwn (values before) op

/-- A measurement with data of its own is assigned to. -/
def AssignsOver (l : Values) (op : Op) : Prop :=
  ∃ i j x y, op = .assign i j ∧ l.get i = some (.data x) ∧ l.get j = some (.data y) ∧ x.kind = y.kind ∧ x.data.isSome = true

/-- A comparison with a file ends by an exception. -/
def FileThrows (l : Values) (op : Op) : Prop :=
  ∃ files i j f, op = .compare files i j ∧ (l.step op).2 = .error f ∧ ∃ g, l.get i = some (.file g) ∨ l.get j = some (.file g)

/-- Calls after which a pointer to the data of the measurement at `i` is not used any more. -/
def Ends (i : Nat) : Op → Prop
  | .setContent k _ => k = i
  | .write k _ => k = i
  | .transfer k _ => k = i
  | .destroy k => k = i
  | _ => False

/-- All measurements are destroyed. -/
def destroyAll (n : Nat) : List Op := (List.range n).map .destroy

end Verif.Life.Spec
