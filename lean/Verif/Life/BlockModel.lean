import Verif.Life.Spec
import Verif.Measurement.Model

/-!
# The memory blocks of measurements

Where `DataMeasurement` and `MeasurementFile` call `malloc`, `free`, `new` and `delete`.  What the calls compute is taken from `Verif/Measurement/Model.lean`; here
every measurement also has the number of the block its pointer `data` points to.  A program is a sequence of calls on measurements that live in numbered places.
Memory of `std::string` is left out, and `malloc` does not fail.
-/

namespace Verif.Life
open Spec Verif.Measurement Verif.Base64

/-- The next number and the history of the heap. -/
structure Heap where
  next : Nat := 0
  log : List Ev := []

/-- One event. -/
def Heap.add (h : Heap) (e : Ev) : Heap := { h with log := h.log ++ [e] }

/-- `malloc` or `new`: the number is `h.next`. -/
def Heap.create (h : Heap) : Heap := { next := h.next + 1, log := h.log ++ [.create h.next] }

/-- An access to a block, if the pointer points to one. -/
def Heap.useOpt (h : Heap) : Option Nat → Heap
  | none => h
  | some i => h.add (.use i)

/-- `if (p) free(p)`. -/
def Heap.freeOpt (h : Heap) : Option Nat → Heap
  | none => h
  | some i => h.add (.destroy i)

/-- A `DataMeasurement` and the block `data` points to, tfMeasurement.h:313-321. -/
structure Slot where
  d : DataM
  block : Option Nat := none

/-- `DeleteContentAsData`, tfMeasurement.cpp:411-416. -/
def Slot.delete (h : Heap) (s : Slot) : Heap × Slot := (h.freeOpt s.block, ⟨{ s.d with data := none }, none⟩)

/-- The allocation in tfMeasurement.cpp:392-396, if there is one; it stays when `Decode` throws. -/
def Slot.alloc (h : Heap) (d : DataM) : Heap × Slot :=
  if d.data.isSome then (h.create.add (.use h.next), ⟨d, some h.next⟩) else (h, ⟨d, none⟩)

/-- `UpdateContentAsData`, tfMeasurement.cpp:379-409: the old block is freed. -/
def Slot.update (h : Heap) (s : Slot) : Heap × Slot × Except Fault Unit :=
  let (h, s) := s.delete h
  ((Slot.alloc h s.d.update.1).1, (Slot.alloc h s.d.update.1).2, s.d.update.2)

/-- The common beginning of `GetContentAsData` and `GetContentAsDataSize`, tfMeasurement.cpp:419-420, 428-429. -/
def Slot.touch (h : Heap) (s : Slot) : Heap × Slot × Except Fault Unit :=
  match s.block with
  | some _ => (h, s, .ok ())
  | none => s.update h

/-- What `GetContentAsDataSize` then returns, tfMeasurement.cpp:427-434. -/
def Slot.size (s : Slot) : Nat := (s.d.data.map List.length).getD s.d.content.length

/-- What `GetContentAsData` then points to, tfMeasurement.cpp:417-425. -/
def Slot.cells (s : Slot) : List Cell := s.d.data.getD (s.d.content.map some)

/-- `SetContent`, tfMeasurement.h:342,423. -/
def Slot.setContent (h : Heap) (s : Slot) (c : Str) : Heap × Slot := Slot.delete h { s with d := { s.d with content := c } }

/-- The end of `SetContentAsData`, tfMeasurement.cpp:452-463: the data becomes the content; `Encode` accesses the block also when it is empty. -/
def Slot.encodeData (h : Heap) (s : Slot) (payload : Str) : Heap × Slot × Except Fault Unit :=
  if s.d.encoding = b!"none" then (h, s, .ok ())
  else if s.d.encoding = b!"base64" then
    match encode true payload with
    | .error f => (h.useOpt s.block, s, .error f)
    | .ok c => ((s.setContent (h.useOpt s.block) c).1, (s.setContent (h.useOpt s.block) c).2, .ok ())
  else (h, s, .ok ())

/-- The test of the compression, tfMeasurement.cpp:447-450, and what follows. -/
def Slot.compressData (h : Heap) (s : Slot) (bytes : Str) : Heap × Slot × Except Fault Unit :=
  if s.d.compression ≠ b!"none" then Slot.encodeData (s.delete h).1 (s.delete h).2 [] else s.encodeData h bytes

/-- `SetContentAsData`, tfMeasurement.cpp:436-464; `src` is the block `_data` points to if it is one of these.  `memcpy` accesses
the blocks also when no byte is copied. -/
def Slot.setData (h : Heap) (s : Slot) (src : Option Nat) (bytes : Str) : Heap × Slot × Except Fault Unit :=
  let (h, s) := s.delete h
  let s : Slot := ⟨{ s.d with data := some (bytes.map some) }, some h.next⟩
  s.compressData (((h.create).useOpt src).useOpt s.block) bytes

/-- `DataMeasurement::IsEqual` for two objects, tfMeasurement.cpp:476-482. -/
def Slot.compare (h : Heap) (this m : Slot) : Heap × Slot × Slot × Except Fault Bool :=
  if this.d.name = m.d.name ∧ this.d.kind.typeName = m.d.kind.typeName then
    match this.touch h with
    | (h, this, .error f) => (h, this, m, .error f)
    | (h, this, .ok ()) =>
      match m.touch h with
      | (h, m, .error f) => (h, this, m, .error f)
      | (h, m, .ok ()) =>
        if this.size = m.size then
          match m.touch h with
          | (h, m, .error f) => (h, this, m, .error f)
          | (h, m, .ok ()) =>
            match this.touch h with
            | (h, this, .error f) => (h, this, m, .error f)
            | (h, this, .ok ()) => ((h.useOpt this.block).useOpt m.block, this, m, memEq this.cells m.cells this.size)
        else (h, this, m, .ok false)
  else (h, this, m, .ok false)

/-- The same when both are the same object: name, type and size are equal. -/
def Slot.compareSelf (h : Heap) (this : Slot) : Heap × Slot × Except Fault Bool :=
  match this.touch h with
  | (h, this, .error f) => (h, this, .error f)
  | (h, this, .ok ()) =>
    match this.touch h with
    | (h, this, .error f) => (h, this, .error f)
    | (h, this, .ok ()) => ((h.useOpt this.block).useOpt this.block, this, memEq this.cells this.cells this.size)

/-- A measurement made by `MeasurementFile::Load`: the object and its block. -/
structure Loaded where
  obj : Nat
  slot : Slot

/-- `MeasurementFile::Load`, tfMeasurement.cpp:231-300, with the buffer `buff` that is freed at the end.  Reading is taken to succeed once the file is open. -/
def loadFile (h : Heap) (files : Files) (f : FileM) : Heap × Loaded :=
  match files (f.fileName.takeWhile (· ≠ 0)) with
  | none => (h.create, ⟨h.next, ⟨{ kind := .plain }, none⟩⟩)
  | some bytes =>
    let buff := h.next
    let h := h.create.add (.use buff)
    let obj := h.next
    let h := h.create
    let (h, s, _) := Slot.setData h ⟨(createDataMeasurement f.type).getD { kind := .plain }, none⟩ (some buff) bytes
    (((h.add (.use obj)).add (.destroy buff)), ⟨obj, { s with d := { s.d with name := f.name } }⟩)

/-- `delete dm`, tfMeasurement.cpp:308: the destructor frees the block, tfMeasurement.cpp:327-329. -/
def unload (h : Heap) (l : Loaded) : Heap := (h.freeOpt l.slot.block).add (.destroy l.obj)

/-- `MeasurementFile::IsEqual` for a data measurement, tfMeasurement.cpp:302-315: when the comparison throws, the loaded measurement is not deleted. -/
def fileVsData (h : Heap) (files : Files) (f : FileM) (m : Slot) : Heap × Slot × Except Fault Bool :=
  if f.name ≠ m.d.name ∨ f.type ≠ m.d.kind.typeName then (h, m, .ok false)
  else
    let (h, l) := loadFile h files f
    match m.compare (h.add (.use l.obj)) l.slot with
    | (h, m, _, .error e) => (h, m, .error e)
    | (h, m, dm, .ok v) => (unload h ⟨l.obj, dm⟩, m, .ok v)

/-- `MeasurementFile::IsEqual` for another file, tfMeasurement.cpp:302-315: the other file is asked to compare itself with the loaded measurement. -/
def fileVsFile (h : Heap) (files : Files) (f g : FileM) : Heap × Except Fault Bool :=
  if f.name ≠ g.name ∨ f.type ≠ g.type then (h, .ok false)
  else
    let (h, l) := loadFile h files f
    match fileVsData (h.add (.use l.obj)) files g l.slot with
    | (h, _, .error e) => (h, .error e)
    | (h, dm, .ok v) => (unload h ⟨l.obj, dm⟩, .ok v)

/-! ## Programs -/

/-- A measurement object. -/
inductive Thing where
  | data (s : Slot)
  | file (f : FileM)

/-- The measurements of a program; a place is `none` when its measurement was destroyed. -/
structure Pool where
  heap : Heap := {}
  things : List (Option Thing) := []

/-- The calls a program can make. -/
inductive Op where
  /-- construct a measurement of this class with these attributes and this content -/
  | new (m : Meas)
  /-- construct a copy of a measurement -/
  | copy (i : Nat)
  /-- assign the second to the first, which is of the same class -/
  | assign (i j : Nat)
  | setName (i : Nat) (n : Str)
  | setContent (i : Nat) (c : Str)
  | setEncoding (i : Nat) (e : Str)
  | setCompression (i : Nat) (c : Str)
  /-- `GetContentAsData` or `GetContentAsDataSize` -/
  | read (i : Nat)
  /-- `SetContentAsData` from memory of the caller -/
  | write (i : Nat) (bytes : Str)
  /-- `i.SetContentAsData(j.GetContentAsData(), j.GetContentAsDataSize())` -/
  | transfer (i j : Nat)
  /-- `i == j`, with the files there are at that time -/
  | compare (files : Files) (i j : Nat)
  | destroy (i : Nat)

/-- The measurement at a place. -/
def Pool.get (p : Pool) (i : Nat) : Option Thing := p.things[i]?.join

/-- The place after a call. -/
def Pool.put (p : Pool) (h : Heap) (i : Nat) (t : Option Thing) : Pool := ⟨h, p.things.set i t⟩

/-- Put a data measurement. -/
def Pool.putData (p : Pool) (h : Heap) (i : Nat) (s : Slot) : Pool := p.put h i (some (.data s))

/-- The bytes of a block; indeterminate ones are taken to be 0. -/
def bytesOf (c : List Cell) : Str := c.map (·.getD 0)

/-- The constructors, tfMeasurement.cpp:331-334: there is no block. -/
def Pool.new (p : Pool) : Meas → Pool
  | .data d => { p with things := p.things ++ [some (.data ⟨{ d with data := none }, none⟩)] }
  | .file f => { p with things := p.things ++ [some (.file f)] }

/-- The copy constructors, tfMeasurement.cpp:336-338: there is no block. -/
def Pool.copy (p : Pool) : Thing → Pool
  | .data s => { p with things := p.things ++ [some (.data ⟨s.d.copy, none⟩)] }
  | .file f => { p with things := p.things ++ [some (.file f)] }

/-- The assignments, tfMeasurement.cpp:188-193, 340-347: the pointer `data` is overwritten. -/
def Pool.assign (p : Pool) (i : Nat) : Thing → Thing → Pool
  | .data s, .data t => if s.d.kind = t.d.kind then p.putData p.heap i ⟨s.d.assign t.d, none⟩ else p
  | .file _, .file g => p.put p.heap i (some (.file g))
  | _, _ => p

/-- `SetAttributeName`, tfMeasurement.cpp:86-88. -/
def Pool.setName (p : Pool) (i : Nat) (n : Str) : Thing → Pool
  | .data s => p.putData p.heap i { s with d := { s.d with name := n } }
  | .file f => p.put p.heap i (some (.file { f with name := n }))

/-- `SetContent`, tfMeasurement.cpp:215-217, tfMeasurement.h:342,423. -/
def Pool.setContent (p : Pool) (i : Nat) (c : Str) : Thing → Pool
  | .data s => p.putData (s.setContent p.heap c).1 i (s.setContent p.heap c).2
  | .file f => p.put p.heap i (some (.file { f with fileName := c }))

/-- Destructors, tfMeasurement.cpp:327-329. -/
def Pool.destroy (p : Pool) (i : Nat) : Thing → Pool
  | .data s => p.put (s.delete p.heap).1 i none
  | .file _ => p.put p.heap i none

/-- `x.SetContentAsData(y.GetContentAsData(), y.GetContentAsDataSize())`, y at `j` and x at `i`. -/
def Pool.transfer (p : Pool) (i j : Nat) (s t : Slot) : Pool × Except Fault Unit :=
  match t.touch p.heap with
  | (h, t, .error f) => (p.putData h j t, .error f)
  | (h, t, .ok ()) =>
    match t.touch h with
    | (h, t, .error f) => (p.putData h j t, .error f)
    | (h, t, .ok ()) =>
      let r := Slot.setData h (if i = j then t else s) t.block (bytesOf t.cells)
      ((p.putData h j t).putData r.1 i r.2.1, r.2.2)

/-- `operator==`, tfMeasurement.cpp:151-153, 302-315, 472-484. -/
def Pool.compare (p : Pool) (files : Files) (i j : Nat) : Thing → Thing → Pool × Except Fault Bool
  | .data s, .data t =>
    if i = j then
      let r := s.compareSelf p.heap
      (p.putData r.1 i r.2.1, r.2.2)
    else
      let r := s.compare p.heap t
      ((p.putData r.1 i r.2.1).putData r.1 j r.2.2.1, r.2.2.2)
  | .data s, .file g =>
    let r := fileVsData p.heap files g s
    (p.putData r.1 i r.2.1, r.2.2)
  | .file f, .data t =>
    let r := fileVsData p.heap files f t
    (p.putData r.1 j r.2.1, r.2.2)
  | .file f, .file g =>
    let r := fileVsFile p.heap files f g
    (⟨r.1, p.things⟩, r.2)

/-- What a call gives back: an exception, or the answer of a comparison. -/
abbrev Answer := Except Fault (Option Bool)

/-- One call.  Calls that cannot be written (of a destroyed measurement, of another class) do nothing. -/
def Pool.step (p : Pool) : Op → Pool × Answer
  | .new m => (p.new m, .ok none)
  | .copy i =>
    match p.get i with
    | some t => (p.copy t, .ok none)
    | none => (p, .ok none)
  | .assign i j =>
    match p.get i, p.get j with
    | some s, some t => (p.assign i s t, .ok none)
    | _, _ => (p, .ok none)
  | .setName i n =>
    match p.get i with
    | some t => (p.setName i n t, .ok none)
    | none => (p, .ok none)
  | .setContent i c =>
    match p.get i with
    | some t => (p.setContent i c t, .ok none)
    | none => (p, .ok none)
  | .setEncoding i e =>
    match p.get i with
    | some (.data s) => (p.putData p.heap i { s with d := s.d.setEncoding e }, .ok none)
    | _ => (p, .ok none)
  | .setCompression i c =>
    match p.get i with
    | some (.data s) => (p.putData p.heap i { s with d := s.d.setCompression c }, .ok none)
    | _ => (p, .ok none)
  | .read i =>
    match p.get i with
    | some (.data s) =>
      let r := s.touch p.heap
      (p.putData (r.1.useOpt r.2.1.block) i r.2.1, r.2.2.map fun _ => none)
    | _ => (p, .ok none)
  | .write i bytes =>
    match p.get i with
    | some (.data s) =>
      let r := Slot.setData p.heap s none bytes
      (p.putData r.1 i r.2.1, r.2.2.map fun _ => none)
    | _ => (p, .ok none)
  | .transfer i j =>
    match p.get i, p.get j with
    | some (.data s), some (.data t) =>
      let r := p.transfer i j s t
      (r.1, r.2.map fun _ => none)
    | _, _ => (p, .ok none)
  | .compare files i j =>
    match p.get i, p.get j with
    | some s, some t =>
      let r := p.compare files i j s t
      (r.1, r.2.map some)
    | _, _ => (p, .ok none)
  | .destroy i =>
    match p.get i with
    | some t => (p.destroy i t, .ok none)
    | none => (p, .ok none)

/-- A program. -/
def Pool.run (p : Pool) : List Op → Pool
  | [] => p
  | op :: ops => (p.step op).1.run ops

end Verif.Life
